import Verif.Props.Mirror
import Verif.Props.Binary
import Verif.Props.Bounds
import Mathlib.Analysis.Complex.ExponentialBounds

/-!
# BinaryPSO treats 0 and 1 alike (C130)

The second optimizer codes some of the decisions the other way round: 0 for 1 and 1 for 0.
-/

set_option linter.unusedSectionVars false

namespace PySwarms

/-! ### Specification -/

section
variable {n d : Nat} {K : Type} [Field K] [LinearOrder K] [IsStrictOrderedRing K] [Transc K]
  [FloorRing K]

/-- Code the bits marked by `m` the other way round. -/
def Change.complement (m : Fin d → Bool) : Change d K :=
  ⟨fun j => if m j then -1 else 1, fun j => if m j then 1 else 0, Equiv.refl _⟩

/-- In the other coding the marked coordinates of a position become `1 - x`, those of a velocity
change their sign. -/
theorem complement_coordinate (m : Fin d → Bool) (x : Vec d K) (j : Fin d) :
    (Change.complement m).pt x j = (if m j then 1 - x j else x j) ∧
      (Change.complement m).vec x j = if m j then -x j else x j := by
  simp only [Change.pt, Change.vec, Change.complement, Equiv.refl_apply]
  split
  · exact ⟨by ring, by ring⟩
  · exact ⟨by ring, by ring⟩

/-- The problem in the other coding: the velocity clamp is mirrored (a symmetric one stays what it
is), `init_pos` is complemented. -/
def Config.complement (m : Fin d → Bool) (cfg : Config n d K) : Config n d K :=
  { cfg with
    clamp := cfg.clamp.map (mirrorBox m)
    initPos := cfg.initPos.map (Change.complement m).mat }

/-- The same random numbers, with the threshold `1 - u` for the marked bits, and neighbour queries
that answer alike. -/
structure DrawComplement (m : Fin d → Bool) (r r' : Draw n d K) : Prop where
  r1 : r'.r1 = r.r1
  r2 : r'.r2 = r.r2
  oracle : OracleSeen (Change.complement (K := K) m).pt r.oracle r'.oracle
  thr : ∀ j, r'.thr j = if m j then 1 - r.thr j else r.thr j

/-- The complemented random numbers for a new swarm. -/
structure InitComplement (m : Fin d → Bool) (r r' : InitDraw n d K) : Prop where
  bits : ∀ i j, r'.bits i j = if m j then !r.bits i j else r.bits i j
  vel : ∀ i j, r'.vel i j = if m j then 1 - r.vel i j else r.vel i j

/-- The swarm after the first `k` iterations of a call of `optimize`. -/
def swarmAfter (cfg : Config n d K) (ev : Nat → Mat n d K → Except Err (Costs n K)) (iters : Nat)
    (nproc : Option Nat) (env : Nat → Draw n d K) (s : Opt n d K) (k : Nat) : Swarm n d K :=
  (loop cfg ev env iters k 0 [] (startState cfg nproc s)).1.swarm

/-- No threshold of a marked bit is exactly the number it is compared with. -/
def NoExactHit (m : Fin d → Bool) (cfg : Config n d K)
    (ev : Nat → Mat n d K → Except Err (Costs n K)) (iters : Nat) (nproc : Option Nat)
    (env : Nat → Draw n d K) (s : Opt n d K) : Prop :=
  ∀ k, k < iters → ∀ i j, m j = true →
    (env k).thr j ≠ sigmoid ((swarmAfter cfg ev iters nproc env s (k + 1)).velocity i j)

/-! ### Helper lemmas -/

variable {m : Fin d → Bool} {cfg : Config n d K}

theorem complement_mat (x : Mat n d K) (i : Fin n) (j : Fin d) :
    (Change.complement m).mat x i j = if m j then 1 - x i j else x i j :=
  (complement_coordinate m (x i) j).1

theorem complement_vmat (v : Mat n d K) :
    (Change.complement m).vmat v = (Change.mirror m).vmat v := rfl

theorem vhCall_complement (st : String) (mem : Option (Mat n d K))
    {c : Option (Clamp d K)} (hc : ∀ c', c = some c' → ∀ j, c'.1 j ≤ c'.2 j)
    (p : Mat n d K) (v : Mat n d K) :
    vhCall st (mem.map (Change.complement m).mat) (c.map (mirrorBox m))
        { position := some ((Change.complement m).mat p), bounds := some none }
        ((Change.complement m).vmat v) =
      ((vhCall st mem c { position := some p, bounds := some none } v).1.map
          (Change.complement m).mat,
       (vhCall st mem c { position := some p, bounds := some none } v).2.map
          (Change.complement m).vmat) := by
  unfold vhCall
  split
  · simp only [vhUnmodified, complement_vmat, clampOpt_mirror hc]; rfl
  · split
    · unfold vhAdjust
      dsimp only
      cases mem with
      | none => rfl
      | some y =>
        have : (fun i j => (Change.complement m).mat p i j - (Change.complement m).mat y i j) =
            (Change.mirror m).vmat fun i j => p i j - y i j := by
          funext i j
          rw [complement_mat, complement_mat, mirror_vmat]
          split
          · ring
          · rfl
        simp only [Option.map_some, this, clampOpt_mirror hc]
        rfl
    · split
      · rfl
      · split
        · rfl
        · rfl

theorem computeVelocity_complement {s s' : Swarm n d K}
    (h : SwarmSeen (Change.complement m).pt (Change.complement m).vec (fun c => c) s s')
    {c : Option (Clamp d K)} (hc : ∀ c', c = some c' → ∀ j, c'.1 j ≤ c'.2 j) (st : String)
    (mem : Option (Mat n d K)) (r1 r2 : Mat n d K) :
    computeVelocity s' (c.map (mirrorBox m)) st (mem.map (Change.complement m).mat) none r1 r2 =
      ((computeVelocity s c st mem none r1 r2).1.map (Change.complement m).mat,
       (computeVelocity s c st mem none r1 r2).2.map (Change.complement m).vmat) := by
  unfold computeVelocity
  rw [h.options]
  split
  · next c1 c2 w _ _ _ =>
    dsimp only
    have ht : tempVelocity c1 c2 w r1 r2 s' =
        (Change.complement m).vmat (tempVelocity c1 c2 w r1 r2 s) :=
      tempVelocity_seen h c1 c2 w r1 r2
    rw [ht, show s'.position = (Change.complement m).mat s.position from h.position,
      vhCall_complement st mem hc, h.bestPos]
    cases s.bestPos with
    | empty =>
      dsimp only [BestPos.map]
      split
      · rfl
      · split
        · split
          · rfl
          · generalize vhCall st mem c { position := some s.position, bounds := some none }
              (tempVelocity c1 c2 w r1 r2 s) = o
            obtain ⟨m, e | v⟩ := o <;> rfl
        · rfl
    | single v => rfl
    | perParticle m => rfl
  · rfl

theorem binaryPosition_complement (hσ : ∀ x : K, sigmoid (-x) = 1 - sigmoid x)
    {thr thr' : Vec d K} (ht : ∀ j, thr' j = if m j then 1 - thr j else thr j) (v : Mat n d K)
    (hn : ∀ i j, m j = true → thr j ≠ sigmoid (v i j)) :
    binaryPosition thr' ((Change.complement m).vmat v) =
      (Change.complement m).mat (binaryPosition thr v) := by
  funext i j
  rw [complement_mat, complement_vmat]
  unfold binaryPosition
  rw [mirror_vmat, ht j]
  cases hm : m j
  · rfl
  · simp only [if_true, hσ]
    have := hn i j hm
    rcases lt_or_gt_of_ne this with h | h
    · rw [if_pos h, if_neg (by linarith), sub_self]
    · rw [if_neg (not_lt.2 (le_of_lt h)), if_pos (by linarith), sub_zero]

theorem moveSwarm_complement (hk : cfg.kind = .binary)
    (hc : ∀ c, cfg.clamp = some c → ∀ j, c.1 j ≤ c.2 j)
    (hσ : ∀ x : K, sigmoid (-x) = 1 - sigmoid x) {r r' : Draw n d K} (hr : DrawComplement m r r')
    (iters i : Nat) (s s' : Opt n d K) (h : Seen (Change.complement m) (fun c => c) s s')
    (hn : ∀ a j, m j = true →
      r.thr j ≠ sigmoid ((moveSwarm cfg r iters i s).1.swarm.velocity a j)) :
    Seen (Change.complement m) (fun c => c) (moveSwarm cfg r iters i s).1
        (moveSwarm (cfg.complement m) r' iters i s').1 ∧
      (moveSwarm cfg r iters i s).2 = (moveSwarm (cfg.complement m) r' iters i s').2 := by
  have hk' : (cfg.complement m).kind = .binary := hk
  have o1 : callOptions cfg iters i r s.swarm = .ok s.swarm.options := by
    unfold callOptions; rw [hk]
  have o2 : callOptions (cfg.complement m) iters i r' s'.swarm = .ok s.swarm.options := by
    unfold callOptions; rw [hk']; exact congrArg _ h.swarm.options
  have b1 : velBounds cfg = none := by unfold velBounds; rw [hk]
  have b2 : velBounds (cfg.complement m) = none := by unfold velBounds; rw [hk']
  have p1 : ∀ mem sw, callPosition cfg r mem sw = (mem, .ok (binaryPosition r.thr sw.velocity)) := by
    intro mem sw; unfold callPosition; rw [hk]
  have p2 : ∀ mem sw, callPosition (cfg.complement m) r' mem sw =
      (mem, .ok (binaryPosition r'.thr sw.velocity)) := by
    intro mem sw; unfold callPosition; rw [hk']
  unfold moveSwarm at hn ⊢
  rw [o1] at hn ⊢
  rw [o2]
  dsimp only at hn ⊢
  rw [b1] at hn ⊢
  rw [b2]
  have hs1 : SwarmSeen (Change.complement m).pt (Change.complement m).vec (fun c => c)
      { s.swarm with options := s.swarm.options } { s'.swarm with options := s.swarm.options } :=
    ⟨h.swarm.1, h.swarm.2, rfl, h.swarm.4, h.swarm.5, h.swarm.6, h.swarm.7, h.swarm.8⟩
  have hv := computeVelocity_complement hs1 hc cfg.vhStrategy s.vhMem r.r1 r.r2
  rw [← h.vhMem] at hv
  rw [show (cfg.complement m).clamp = cfg.clamp.map (mirrorBox m) from rfl,
    show (cfg.complement m).vhStrategy = cfg.vhStrategy from rfl, hr.r1, hr.r2, hv]
  revert hn
  generalize computeVelocity { s.swarm with options := s.swarm.options } cfg.clamp cfg.vhStrategy
    s.vhMem none r.r1 r.r2 = q
  obtain ⟨vm, e | v⟩ := q
  · intro _
    exact ⟨⟨hs1, h.2, h.3, rfl, h.5, h.6, h.7, h.8, h.9, h.10, h.11⟩, rfl⟩
  · dsimp only [Except.map]
    rw [p1, p2]
    dsimp only
    intro hn
    refine ⟨⟨⟨?_, rfl, rfl, h.swarm.4, h.swarm.5, h.swarm.6, h.swarm.7, h.swarm.8⟩, h.2, h.3, rfl,
      h.5, h.6, h.7, h.8, h.9, h.10, h.11⟩, rfl⟩
    exact binaryPosition_complement hσ hr.thr v hn

theorem iterate_complement (hk : cfg.kind = .binary)
    (hc : ∀ c, cfg.clamp = some c → ∀ j, c.1 j ≤ c.2 j)
    (hσ : ∀ x : K, sigmoid (-x) = 1 - sigmoid x) {r r' : Draw n d K} (hr : DrawComplement m r r')
    {ev ev' : Mat n d K → Except Err (Costs n K)}
    (hev : ∀ x, ev' ((Change.complement m).mat x) = ev x)
    (iters i : Nat) (q : List Bool) (s s' : Opt n d K)
    (h : Seen (Change.complement m) (fun c => c) s s')
    (hn : ∀ a j, m j = true →
      r.thr j ≠ sigmoid ((iterate cfg ev r iters i q s).1.swarm.velocity a j)) :
    Seen (Change.complement m) (fun c => c) (iterate cfg ev r iters i q s).1
        (iterate (cfg.complement m) ev' r' iters i q s').1 ∧
      (iterate cfg ev r iters i q s).2 = (iterate (cfg.complement m) ev' r' iters i q s').2 := by
  have he : ev' s'.swarm.position = ev s.swarm.position := by
    rw [show s'.swarm.position = (Change.complement m).mat s.swarm.position from h.swarm.position,
      hev]
  unfold iterate at hn ⊢
  rw [he]
  revert hn
  cases ev s.swarm.position with
  | error e => intro _; exact ⟨h, rfl⟩
  | ok c =>
    dsimp only
    have h1 : Seen (Change.complement m) (fun c => c) (recordEval c s) (recordEval c s') :=
      recordEval_seen CostMap.id c s s' h
    have hgb := callGbest_seen CostMap.id h1.swarm hr.oracle cfg (cfg.complement m) rfl rfl
      (recordEval c s).top
    rw [← h1.top] at hgb
    rw [hgb, h1.top]
    generalize callGbest cfg r.oracle (recordEval c s).top (recordEval c s).swarm = o
    obtain ⟨t, e | g⟩ := o
    · intro _
      exact ⟨⟨h1.1, rfl, h1.3, h1.4, h1.5, h1.6, h1.7, h1.8, h1.9, h1.10, h1.11⟩, rfl⟩
    · dsimp only [Except.map]
      have h2 := recordBest_seen CostMap.id t g _ _ h1
      have y1 := h1.swarm.bestCostVal CostMap.id
      have y2 := h2.swarm.bestCostVal CostMap.id
      rw [y1, y2, show (cfg.complement m).window = cfg.window from rfl,
        show (cfg.complement m).ftol = cfg.ftol from rfl]
      split
      · intro _; exact ⟨h2, rfl⟩
      · intro hn
        have hm := moveSwarm_complement hk hc hσ hr iters i _ _ h2 (by
          intro a j hj
          have := hn a j hj
          revert this
          generalize moveSwarm cfg r iters i (recordBest t g (recordEval c s)) = o
          obtain ⟨s1, e | u⟩ := o <;> exact id)
        obtain ⟨h6, h7⟩ := hm
        revert h6 h7
        generalize moveSwarm cfg r iters i (recordBest t g (recordEval c s)) = o
        generalize moveSwarm (cfg.complement m) r' iters i
          (recordBest t (seenBest (Change.complement m).pt (fun c => c) g) (recordEval c s')) = o'
        intro h6 h7
        obtain ⟨s1, o⟩ := o
        obtain ⟨s1', o'⟩ := o'
        simp only at h7
        subst h7
        cases o with
        | error e => exact ⟨h6, rfl⟩
        | ok u => exact ⟨h6, rfl⟩

theorem loop_complement (hk : cfg.kind = .binary)
    (hc : ∀ c, cfg.clamp = some c → ∀ j, c.1 j ≤ c.2 j)
    (hσ : ∀ x : K, sigmoid (-x) = 1 - sigmoid x) {env env' : Nat → Draw n d K}
    (hr : ∀ i, DrawComplement m (env i) (env' i))
    {ev ev' : Nat → Mat n d K → Except Err (Costs n K)}
    (hev : ∀ k x, ev' k ((Change.complement m).mat x) = ev k x) (iters : Nat)
    (l i : Nat) (q : List Bool) (s s' : Opt n d K)
    (h : Seen (Change.complement m) (fun c => c) s s')
    (hn : ∀ k, k < l → ∀ a j, m j = true → (env (i + k)).thr j ≠
      sigmoid ((loop cfg ev env iters (k + 1) i q s).1.swarm.velocity a j)) :
    Seen (Change.complement m) (fun c => c) (loop cfg ev env iters l i q s).1
        (loop (cfg.complement m) ev' env' iters l i q s').1 ∧
      (loop cfg ev env iters l i q s).2 = (loop (cfg.complement m) ev' env' iters l i q s').2 := by
  induction l generalizing i q s s' with
  | zero => exact ⟨h, rfl⟩
  | succ l ih =>
    have h0 := iterate_complement hk hc hσ (hr i) (hev i) iters i q s s' h (by
      intro a j hj
      have := hn 0 (Nat.succ_pos l) a j hj
      rw [loop] at this
      revert this
      generalize iterate cfg (ev i) (env i) iters i q s = o
      obtain ⟨s1, e | f⟩ := o
      · exact id
      · cases f <;> exact id)
    obtain ⟨h1, h2⟩ := h0
    have hn' : ∀ k, k < l → ∀ a j, m j = true → (env (i + (k + 1))).thr j ≠
      sigmoid ((loop cfg ev env iters (k + 1 + 1) i q s).1.swarm.velocity a j) :=
      fun k hk' => hn (k + 1) (Nat.succ_lt_succ hk')
    rw [loop, loop]
    have hl : ∀ k, loop cfg ev env iters (k + 1 + 1) i q s =
        match iterate cfg (ev i) (env i) iters i q s with
        | (s', .error e) => (s', .error e)
        | (s', .ok .stop) => (s', .ok ())
        | (s', .ok (.continue q')) => loop cfg ev env iters (k + 1) (i + 1) q' s' := fun k => by
      rw [loop]
      rfl
    simp only [hl] at hn'
    revert h1 h2 hn'
    generalize iterate cfg (ev i) (env i) iters i q s = o
    generalize iterate (cfg.complement m) (ev' i) (env' i) iters i q s' = o'
    intro h1 h2 hn'
    obtain ⟨s1, o⟩ := o
    obtain ⟨s1', o'⟩ := o'
    simp only at h2
    subst h2
    rcases o with e | f
    · exact ⟨h1, rfl⟩
    · cases f with
      | stop => exact ⟨h1, rfl⟩
      | «continue» q' =>
        refine ih (i + 1) q' s1 s1' h1 fun k hk' a j hj => ?_
        have := hn' k hk' a j hj
        rw [show i + 1 + k = i + (k + 1) by omega]
        exact this

theorem optimize_complement (hk : cfg.kind = .binary)
    (hc : ∀ c, cfg.clamp = some c → ∀ j, c.1 j ≤ c.2 j)
    (hσ : ∀ x : K, sigmoid (-x) = 1 - sigmoid x) {env env' : Nat → Draw n d K}
    (hr : ∀ i, DrawComplement m (env i) (env' i))
    {ev ev' : Nat → Mat n d K → Except Err (Costs n K)}
    (hev : ∀ k x, ev' k ((Change.complement m).mat x) = ev k x) (iters : Nat) (nproc : Option Nat)
    (s s' : Opt n d K) (h : Seen (Change.complement m) (fun c => c) s s')
    (hn : NoExactHit m cfg ev iters nproc env s) :
    Seen (Change.complement m) (fun c => c) (optimize cfg ev iters nproc env s).1
        (optimize (cfg.complement m) ev' iters nproc env' s').1 ∧
      (optimize (cfg.complement m) ev' iters nproc env' s').2 =
        (optimize cfg ev iters nproc env s).2.map
          fun r => (r.1, (Change.complement m).pt r.2) := by
  have hmem : (prepare (cfg.complement m) s').bhMem =
        (prepare cfg s).bhMem.map (Change.complement m).mat ∧
      (prepare (cfg.complement m) s').vhMem =
        (prepare cfg s).vhMem.map (Change.complement m).mat := by
    unfold prepare
    dsimp only
    rw [show (cfg.complement m).kind = cfg.kind from rfl, h.swarm.position]
    refine ⟨?_, rfl⟩
    split
    · exact h.bhMem
    · rfl
  obtain ⟨m1, m2⟩ := hmem
  have h0 : Seen (Change.complement m) (fun c => c) (startState cfg nproc s)
      (startState (cfg.complement m) nproc s') := by
    refine ⟨⟨h.swarm.1, h.swarm.2, h.swarm.3, h.swarm.4, ?_, h.swarm.6, h.swarm.7, h.swarm.8⟩,
      h.2, m1, m2, h.5, h.6, h.7, h.8, h.9, h.10, ?_⟩
    · funext i
      exact rfl
    · show s'.openPools + _ = s.openPools + _
      rw [h.openPools]
  have hl := loop_complement hk hc hσ hr hev iters iters 0 [] _ _ h0 (by
    intro k hk' a j hj
    rw [Nat.zero_add]
    exact hn k hk' a j hj)
  unfold startState at hl
  unfold optimize
  split
  · exact ⟨⟨h.1, h.2, m1, m2, h.5, h.6, h.7, h.8, h.9, h.10, h.11⟩, rfl⟩
  · dsimp only
    revert hl
    generalize loop cfg ev env iters iters 0 [] { prepare cfg s with
      openPools := s.openPools + (if nproc.isSome then 1 else 0) } = o
    generalize loop (cfg.complement m) ev' env' iters iters 0 [] { prepare (cfg.complement m) s' with
      openPools := s'.openPools + (if nproc.isSome then 1 else 0) } = o'
    intro hl
    obtain ⟨h1, h2⟩ := hl
    obtain ⟨s1, o⟩ := o
    obtain ⟨s1', o'⟩ := o'
    simp only at h2 h1
    subst h2
    rcases o with e | u
    · exact ⟨h1, rfl⟩
    · dsimp only
      have hf : finish s1' = (finish s1).map fun r => (r.1, (Change.complement m).pt r.2) := by
        unfold finish
        rw [h1.swarm.bestCost, h1.swarm.pbestCost, npArgmin_map CostMap.id, h1.swarm.pbestPos]
        cases s1.swarm.bestCost with
        | none => rfl
        | some c =>
          dsimp only [Option.map_some]
          cases npArgmin s1.swarm.pbestCost with
          | none => rfl
          | some i => rfl
      rw [hf]
      cases finish s1 with
      | error e => exact ⟨h1, rfl⟩
      | ok r =>
        refine ⟨⟨h1.1, h1.2, h1.3, h1.4, h1.5, h1.6, h1.7, h1.8, h1.9, h1.10, ?_⟩, rfl⟩
        show s1'.openPools - _ = s1.openPools - _
        rw [h1.openPools]

theorem atMostTwoValues_bits {p : Mat n d K} (hp : ∀ i j, p i j = 0 ∨ p i j = 1) :
    atMostTwoValues p = true := by
  unfold atMostTwoValues
  rw [decide_eq_true_eq]
  refine le_trans (List.Subperm.length_le (List.Nodup.subperm (List.nodup_dedup _)
    (l₂ := [0, 1]) ?_)) (by simp)
  intro x hx
  rw [List.mem_dedup, List.mem_flatMap] at hx
  obtain ⟨i, -, hx⟩ := hx
  rw [List.mem_map] at hx
  obtain ⟨j, -, rfl⟩ := hx
  rcases hp i j with h | h <;> simp [h]

theorem resetSwarm_complement (hk : cfg.kind = .binary) (hc : cfg.clamp ≠ none)
    (hp : ∀ p, cfg.initPos = some p → ∀ i j, p i j = 0 ∨ p i j = 1)
    {r r' : InitDraw n d K} (hr : InitComplement m r r') :
    ExRel (SwarmSeen (Change.complement m).pt (Change.complement m).vec (fun c => c))
      (resetSwarm cfg r) (resetSwarm (cfg.complement m) r') := by
  have hb : cfg.isBinary = true := by unfold Config.isBinary; rw [hk]
  have hpos : generateDiscreteSwarm true (cfg.initPos.map (Change.complement m).mat) r'.bits
        r'.argsort =
      (generateDiscreteSwarm true cfg.initPos r.bits r.argsort).map (Change.complement m).mat := by
    unfold generateDiscreteSwarm
    cases hi : cfg.initPos with
    | some p =>
      simp only [Option.map_some]
      have h1 := hp p hi
      have h2 : ∀ i j, (Change.complement m).mat p i j = 0 ∨ (Change.complement m).mat p i j = 1 := by
        intro i j
        rw [complement_mat]
        rcases h1 i j with h | h <;> rw [h] <;> cases m j <;> simp
      rw [atMostTwoValues_bits h1, atMostTwoValues_bits h2]
      rfl
    | none =>
      refine congrArg Except.ok ?_
      funext i j
      rw [complement_mat, hr.bits]
      cases m j <;> cases r.bits i j <;> simp
  have hvel : generateVelocity (cfg.clamp.map (mirrorBox m)) r'.vel =
      (Change.complement m).vmat (generateVelocity cfg.clamp r.vel) := by
    funext i j
    rw [complement_vmat, mirror_vmat]
    unfold generateVelocity
    cases hcl : cfg.clamp with
    | none => exact absurd hcl hc
    | some c =>
      simp only [Option.map_some, hr.vel, mirrorBox]
      split <;> ring
  unfold resetSwarm createSwarm
  rw [show (cfg.complement m).isBinary = cfg.isBinary from rfl,
    show (cfg.complement m).initPos = cfg.initPos.map (Change.complement m).mat from rfl,
    show (cfg.complement m).clamp = cfg.clamp.map (mirrorBox m) from rfl,
    show (cfg.complement m).options = cfg.options from rfl]
  dsimp only
  rw [hvel]
  simp only [hb, if_true]
  rw [hpos]
  generalize generateDiscreteSwarm true cfg.initPos r.bits r.argsort = o
  cases o with
  | error e => rfl
  | ok p => exact ⟨rfl, rfl, rfl, rfl, rfl, rfl, rfl, rfl⟩

theorem construct_complement (hk : cfg.kind = .binary) (hc : cfg.clamp ≠ none)
    (hp : ∀ p, cfg.initPos = some p → ∀ i j, p i j = 0 ∨ p i j = 1)
    {r1 r2 r1' r2' : InitDraw n d K} (h1 : InitComplement m r1 r1')
    (h2 : InitComplement m r2 r2') :
    ExRel (Seen (Change.complement m) (fun c => c)) (construct cfg r1 r2)
      (construct (cfg.complement m) r1' r2') := by
  have e1 := resetSwarm_complement hk hc hp h1
  have e2 := resetSwarm_complement hk hc hp h2
  unfold construct
  rw [show (cfg.complement m).kind = cfg.kind from rfl,
    show (cfg.complement m).args = cfg.args from rfl,
    show (cfg.complement m).ftolIter = cfg.ftolIter from rfl]
  split
  · rfl
  · split
    · rfl
    · cases ha : resetSwarm cfg r1 with
      | error e => rw [ha] at e1; rw [exRel_error e1]; rfl
      | ok a =>
        rw [ha] at e1
        obtain ⟨a', ha', -⟩ := exRel_ok e1
        rw [ha']
        dsimp only
        cases hb : resetSwarm cfg r2 with
        | error e => rw [hb] at e2; rw [exRel_error e2]; rfl
        | ok b =>
          rw [hb] at e2
          obtain ⟨b', hb', h⟩ := exRel_ok e2
          rw [hb']
          exact ⟨h, rfl, rfl, rfl, rfl, rfl, fun _ => rfl, rfl, rfl, rfl, rfl⟩

end

theorem sigmoid_neg_real (x : ℝ) : sigmoid (-x) = 1 - sigmoid x := by
  show 1 / (1 + Real.exp (- -x)) = 1 - 1 / (1 + Real.exp (-x))
  have h := Real.exp_pos x
  rw [neg_neg, Real.exp_neg]
  field_simp
  ring

/-! ### C130 -/

variable {n d : Nat}

/-- **C130** (start).  Two BinaryPSO objects with a velocity clamp, the second in the other coding
and built with the complemented random numbers: when the first can be built, so can the second, and
their states differ by the coding only. -/
theorem C130_start (cfg : Config n d ℝ) (m : Fin d → Bool) (hk : cfg.kind = .binary)
    (hc : cfg.clamp ≠ none) (hp : ∀ p, cfg.initPos = some p → ∀ i j, p i j = 0 ∨ p i j = 1)
    (r1 r2 r1' r2' : InitDraw n d ℝ) (h1 : InitComplement m r1 r1') (h2 : InitComplement m r2 r2')
    (s0 : Opt n d ℝ) (hs : construct cfg r1 r2 = .ok s0) :
    ∃ s0', construct (cfg.complement m) r1' r2' = .ok s0' ∧
      Seen (Change.complement m) (fun c => c) s0 s0' := by
  have h := construct_complement hk hc hp h1 h2
  rw [hs] at h
  exact exRel_ok h

/-- **C130** (reset).  `reset` keeps it so. -/
theorem C130_reset (cfg : Config n d ℝ) (m : Fin d → Bool) (hk : cfg.kind = .binary)
    (hc : cfg.clamp ≠ none) (hp : ∀ p, cfg.initPos = some p → ∀ i j, p i j = 0 ∨ p i j = 1)
    (r r' : InitDraw n d ℝ) (hr : InitComplement m r r') (s s' : Opt n d ℝ)
    (h : Seen (Change.complement m) (fun c => c) s s') :
    Seen (Change.complement m) (fun c => c) (reset cfg r s).1 (reset (cfg.complement m) r' s').1 ∧
      (reset (cfg.complement m) r' s').2 = (reset cfg r s).2 := by
  have e := resetSwarm_complement hk hc hp hr
  unfold reset
  dsimp only
  cases ha : resetSwarm cfg r with
  | error e' =>
    rw [ha] at e
    rw [exRel_error e]
    exact ⟨⟨h.1, h.2, h.3, h.4, rfl, rfl, fun _ => rfl, rfl, rfl, h.10, h.11⟩, rfl⟩
  | ok a =>
    rw [ha] at e
    obtain ⟨a', ha', h'⟩ := exRel_ok e
    rw [ha']
    exact ⟨⟨h', h.2, h.3, h.4, rfl, rfl, fun _ => rfl, rfl, rfl, rfl, h.11⟩, rfl⟩

/-- **C130** (run).  Call `optimize` on both, the second time with the objective that decodes its
argument, with the same random numbers but the threshold `1 - u` where the coding is reversed.  Unless
a threshold is exactly the number it is compared with, the second call evaluates the same decisions in
the other coding, with the same costs, histories and exceptions, and returns the same cost and the
same decision in the other coding. -/
theorem C130_run (cfg : Config n d ℝ) (m : Fin d → Bool) (hk : cfg.kind = .binary)
    (hc : ∀ c, cfg.clamp = some c → ∀ j, c.1 j ≤ c.2 j) (ev ev' : Nat → Mat n d ℝ →
      Except Err (Costs n ℝ))
    (hev : ∀ k x, ev' k (fun i j => if m j then 1 - x i j else x i j) = ev k x) (iters : Nat)
    (nproc : Option Nat) (env env' : Nat → Draw n d ℝ)
    (hr : ∀ i, DrawComplement m (env i) (env' i)) (s s' : Opt n d ℝ)
    (h : Seen (Change.complement m) (fun c => c) s s')
    (hn : NoExactHit m cfg ev iters nproc env s) :
    Seen (Change.complement m) (fun c => c) (optimize cfg ev iters nproc env s).1
        (optimize (cfg.complement m) ev' iters nproc env' s').1 ∧
      (optimize (cfg.complement m) ev' iters nproc env' s').2 =
        (optimize cfg ev iters nproc env s).2.map
          fun r => (r.1, fun j => if m j then 1 - r.2 j else r.2 j) := by
  have hev' : ∀ k x, ev' k ((Change.complement m).mat x) = ev k x := by
    intro k x
    rw [← hev k x]
    congr 1
    funext i j
    exact complement_mat x i j
  obtain ⟨h1, h2⟩ := optimize_complement hk hc sigmoid_neg_real hr hev' iters nproc s s' h hn
  refine ⟨h1, ?_⟩
  rw [h2]
  congr 1
  funext r
  congr 1
  funext j
  exact (complement_coordinate m r.2 j).1

/-- **C130** (when nothing is hit exactly).  With a velocity clamp `(lo, hi)` and any strategy but
`zero`, thresholds outside `[sigmoid lo, sigmoid hi]` are never hit, whatever the objective does. -/
theorem C130_never_hit (cfg : Config n d ℝ) (m : Fin d → Bool) (c : Clamp d ℝ)
    (hcc : cfg.clamp = some c) (hc : ∀ j, c.1 j ≤ c.2 j) (hst : cfg.vhStrategy ≠ "zero")
    (ev : Nat → Mat n d ℝ → Except Err (Costs n ℝ)) (iters : Nat) (nproc : Option Nat)
    (env : Nat → Draw n d ℝ)
    (ht : ∀ k j, m j = true → (env k).thr j < sigmoid (c.1 j) ∨ sigmoid (c.2 j) < (env k).thr j)
    (s : Opt n d ℝ) (hs : ∀ i j, c.1 j ≤ s.swarm.velocity i j ∧ s.swarm.velocity i j ≤ c.2 j)
    (hh : ∀ v ∈ s.velocityHistory, ∀ i j, c.1 j ≤ v i j ∧ v i j ≤ c.2 j) :
    NoExactHit m cfg ev iters nproc env s := by
  intro k _ i j hj
  have hw : ClampInv c (loop cfg ev env iters (k + 1) 0 [] (startState cfg nproc s)).1 :=
    (loop_inv cfg ev env iters (fun s => ClampInv c s ∧ s.vhMem.isSome)
      (fun i q s hs => clampInv_iterate hcc hc hst (ev i) (env i) iters i q s hs) (k + 1) 0 []
      (startState cfg nproc s)
      ⟨⟨hs, hh⟩, rfl⟩).1
  have hv := hw.velocity i j
  have h1 := (sigmoid_real _ _ hv.1).1
  have h2 := (sigmoid_real _ _ hv.2).1
  unfold swarmAfter
  rcases ht k j hj with h | h
  · exact ne_of_lt (lt_of_lt_of_le h h1)
  · exact ne_of_gt (lt_of_le_of_lt h2 h)

/-- **C130** (limit).  At an exact hit 0 and 1 are not treated alike: a particle at rest with the
threshold one half gets the bit 0 in both codings. -/
theorem C130_exact_hit :
    ∃ (thr : Vec 1 ℝ) (v : Mat 1 1 ℝ), binaryPosition thr v 0 0 = 0 ∧
      binaryPosition (fun j => 1 - thr j) (fun i j => -v i j) 0 0 = 0 := by
  have h : sigmoid (0 : ℝ) = 1 / 2 := by
    show 1 / (1 + Real.exp (-0)) = 1 / 2
    rw [neg_zero, Real.exp_zero]; norm_num
  refine ⟨fun _ => 1 / 2, fun _ _ => 0, ?_, ?_⟩
  · unfold binaryPosition
    rw [h, if_neg (lt_irrefl _)]
  · unfold binaryPosition
    rw [if_neg]
    dsimp only
    rw [neg_zero, h]
    norm_num

/-- A BinaryPSO of two particles and three bits with the clamp `(-1, 1)`. -/
noncomputable def Ex.bitCfg : Config 2 3 ℝ where
  kind := .binary
  options := [("c1", 1 / 2), ("c2", 1 / 2), ("w", 1)]
  args := { k := some 1, p := some 2 }
  center := fun _ => 1
  clamp := some (fun _ => -1, fun _ => 1)

/-- The threshold `1/4` for the first and third bit, `t` for the second one. -/
noncomputable def Ex.bitDraw (t : ℝ) : Draw 2 3 ℝ where
  r1 := fun _ _ => 1 / 2
  r2 := fun _ _ => 1 / 2
  bh := ⟨fun _ => 0, fun _ => 0, 0⟩
  oracle := ⟨fun k _ _ i => (i :: (List.finRange 2).filter (· ≠ i)).take k,
    fun _ => .error .valueError, fun _ i => [i]⟩
  oh := fun _ => 0
  thr := fun j => if j = 1 then t else 1 / 4

noncomputable def Ex.bitInit (b : Bool) : InitDraw 2 3 ℝ where
  pos := fun _ _ => 0
  bits := fun _ j => if j = 1 then b else true
  argsort := fun _ j => j
  vel := fun _ _ => 1 / 2

/-- Non-vacuity of C130, with the second bit coded the other way round: both optimizers can be built,
the draws correspond to each other, and no run from there hits a threshold exactly. -/
example : (∃ s0, construct Ex.bitCfg (Ex.bitInit true) (Ex.bitInit true) = .ok s0 ∧
      ∀ ev iters nproc, NoExactHit (fun j => decide (j = 1)) Ex.bitCfg ev iters nproc
        (fun _ => Ex.bitDraw (1 / 4)) s0) ∧
    InitComplement (fun j => decide (j = 1)) (Ex.bitInit true) (Ex.bitInit false) ∧
    DrawComplement (fun j => decide (j = 1)) (Ex.bitDraw (1 / 4)) (Ex.bitDraw (3 / 4)) := by
  refine ⟨⟨_, rfl, fun ev iters nproc => ?_⟩, ⟨?_, ?_⟩, rfl, rfl, ⟨fun _ _ _ => rfl, fun _ => rfl,
    fun _ => rfl⟩, ?_⟩
  · refine C130_never_hit _ _ _ rfl (fun _ => by norm_num) (by decide) ev iters nproc _ ?_ _ ?_ ?_
    · intro k j hj
      left
      show (if j = 1 then (1 / 4 : ℝ) else 1 / 4) < 1 / (1 + Real.exp (- -1))
      rw [ite_self, neg_neg]
      have h1 := Real.exp_one_lt_d9
      have h2 := Real.exp_pos 1
      exact one_div_lt_one_div_of_lt (by linarith) (by linarith)
    · intro i j
      show -1 ≤ (1 - -1) * (1 / 2 : ℝ) + -1 ∧ (1 - -1) * (1 / 2 : ℝ) + -1 ≤ 1
      norm_num
    · intro v hv
      cases hv
  · intro i j
    simp only [Ex.bitInit, decide_eq_true_eq]
    split <;> rfl
  · intro i j
    simp only [Ex.bitInit]
    split <;> norm_num
  · intro j
    simp only [Ex.bitDraw, decide_eq_true_eq]
    split <;> norm_num

end PySwarms
