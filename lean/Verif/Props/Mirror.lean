import Verif.Props.Symmetry

/-!
# Mirror images (C83)

The second optimizer measures some of the parameters in the opposite direction.
-/

set_option linter.unusedSectionVars false

namespace PySwarms

variable {n d : Nat} {K : Type} [Field K] [LinearOrder K] [IsStrictOrderedRing K] [Transc K]
  [FloorRing K]

/-! ### Specification -/

/-- Measure the parameters marked by `m` in the opposite direction. -/
def Change.mirror (m : Fin d → Bool) : Change d K :=
  ⟨fun j => if m j then -1 else 1, fun _ => 0, Equiv.refl _⟩

/-- In the mirror image the marked coordinates of points and displacements change their sign. -/
theorem mirror_coordinate (m : Fin d → Bool) (x : Vec d K) (j : Fin d) :
    (Change.mirror m).pt x j = (if m j then -x j else x j) ∧
      (Change.mirror m).vec x j = if m j then -x j else x j := by
  simp only [Change.pt, Change.vec, Change.mirror, Equiv.refl_apply, add_zero]
  split <;> simp

/-- The mirror image of an interval per coordinate (bounds or velocity clamp): the ends change
places. -/
def mirrorBox (m : Fin d → Bool) (b : Vec d K × Vec d K) : Vec d K × Vec d K :=
  (fun j => if m j then -b.2 j else b.1 j, fun j => if m j then -b.1 j else b.2 j)

/-- The mirror image of the problem. -/
def Config.mirror (m : Fin d → Bool) (cfg : Config n d K) : Config n d K :=
  { cfg with
    bounds := cfg.bounds.map (mirrorBox m)
    clamp := cfg.clamp.map (mirrorBox m)
    initPos := cfg.initPos.map (Change.mirror m).mat }

/-- The same random numbers, and neighbour queries that answer alike. -/
structure DrawMirror (m : Fin d → Bool) (r r' : Draw n d K) : Prop where
  r1 : r'.r1 = r.r1
  r2 : r'.r2 = r.r2
  passes : r'.bh.passes = r.bh.passes
  oracle : OracleSeen (Change.mirror (K := K) m).pt r.oracle r'.oracle
  oh : r'.oh = r.oh

/-- The mirrored random numbers for a new swarm: `1 - u` in the marked coordinates. -/
structure InitMirror (m : Fin d → Bool) (r r' : InitDraw n d K) : Prop where
  pos : ∀ i j, r'.pos i j = if m j then 1 - r.pos i j else r.pos i j
  vel : ∀ i j, r'.vel i j = if m j then 1 - r.vel i j else r.vel i j

/-- The configurations covered: continuous, with proper bounds and clamp, a boundary strategy other
than `random` and a velocity strategy other than `invert` (these two treat "too low" and "too high"
differently, for the whole particle). -/
structure Config.MirrorFits (cfg : Config n d K) : Prop where
  kind : cfg.kind ≠ .binary
  bounds : ∀ b, cfg.bounds = some b → ∀ j, b.1 j ≤ b.2 j
  clamp : ∀ c, cfg.clamp = some c → ∀ j, c.1 j ≤ c.2 j
  bh : cfg.bounds = none ∨ cfg.bhStrategy ≠ "random"
  vh : cfg.vhStrategy ≠ "invert"

/-- The initial velocities come from a clamp; the initial positions from `init_pos` or from the bounds
with `center = 1`. -/
def Config.MirrorStart (cfg : Config n d K) : Prop :=
  cfg.clamp ≠ none ∧ (cfg.initPos ≠ none ∨ (cfg.bounds ≠ none ∧ ∀ j, cfg.center j = 1))

/-- The second call is the first one in the mirror. -/
inductive OpMirror (m : Fin d → Bool) : Op n d K → Op n d K → Prop
  | optimize {ev ev' iters nproc env env'} (h : EvSeen (Change.mirror m) (fun c => c) ev ev')
      (he : ∀ i, DrawMirror m (env i) (env' i)) :
      OpMirror m (.optimize ev iters nproc env) (.optimize ev' iters nproc env')
  | reset {r r'} (h : InitMirror m r r') : OpMirror m (.reset r) (.reset r')

/-! ### Helper lemmas -/

variable {m : Fin d → Bool}

theorem mirror_mat (x : Mat n d K) (i : Fin n) (j : Fin d) :
    (Change.mirror m).mat x i j = if m j then -x i j else x i j :=
  (mirror_coordinate m (x i) j).1

theorem mirror_vmat (x : Mat n d K) (i : Fin n) (j : Fin d) :
    (Change.mirror m).vmat x i j = if m j then -x i j else x i j :=
  (mirror_coordinate m (x i) j).2

theorem isLow_mirror (b : Bounds d K) (x : Mat n d K) (i : Fin n) (j : Fin d) :
    isLow (mirrorBox m b) ((Change.mirror m).mat x) i j =
      if m j then isHigh b x i j else isLow b x i j := by
  simp only [isLow, isHigh, mirror_mat, mirrorBox]
  split <;> simp

theorem isHigh_mirror (b : Bounds d K) (x : Mat n d K) (i : Fin n) (j : Fin d) :
    isHigh (mirrorBox m b) ((Change.mirror m).mat x) i j =
      if m j then isLow b x i j else isHigh b x i j := by
  simp only [isLow, isHigh, mirror_mat, mirrorBox]
  split <;> simp

theorem out_mirror (b : Bounds d K) (x : Mat n d K) (i : Fin n) (j : Fin d) :
    (isLow (mirrorBox m b) ((Change.mirror m).mat x) i j ||
      isHigh (mirrorBox m b) ((Change.mirror m).mat x) i j) = (isLow b x i j || isHigh b x i j) := by
  rw [isLow_mirror, isHigh_mirror]
  split
  · rw [Bool.or_comm]
  · rfl

theorem rowOut_eq (b : Bounds d K) (x : Mat n d K) (i : Fin n) :
    (rowLow b x i || rowHigh b x i) =
      (List.finRange d).any fun j => isLow b x i j || isHigh b x i j := by
  unfold rowLow rowHigh
  rw [Bool.eq_iff_iff]
  simp only [Bool.or_eq_true, List.any_eq_true, List.mem_finRange, true_and]
  exact exists_or.symm

theorem rowOut_mirror (b : Bounds d K) (x : Mat n d K) (i : Fin n) :
    (rowLow (mirrorBox m b) ((Change.mirror m).mat x) i ||
      rowHigh (mirrorBox m b) ((Change.mirror m).mat x) i) = (rowLow b x i || rowHigh b x i) := by
  simp only [rowOut_eq, out_mirror]

theorem not_both {b : Bounds d K} (hb : ∀ j, b.1 j ≤ b.2 j) {x : Mat n d K} {i : Fin n} {j : Fin d}
    (h1 : isLow b x i j = true) : isHigh b x i j = false := by
  simp only [isLow, isHigh, decide_eq_true_eq, decide_eq_false_iff_not, not_lt, gt_iff_lt] at *
  exact h1.le.trans (hb j)

/-- A coordinatewise strategy given by what it does below, above and inside. -/
theorem cases_mirror {b : Bounds d K} (hb : ∀ j, b.1 j ≤ b.2 j) (x : Mat n d K) (i : Fin n)
    (j : Fin d) (P : Prop)
    (hlow : isLow b x i j = true → isHigh b x i j = false → P)
    (hhigh : isLow b x i j = false → isHigh b x i j = true → P)
    (hin : isLow b x i j = false → isHigh b x i j = false → P) : P := by
  cases h1 : isLow b x i j with
  | true => exact hlow h1 (not_both hb h1)
  | false =>
    cases h2 : isHigh b x i j with
    | true => exact hhigh h1 h2
    | false => exact hin h1 h2

theorem bhNearest_mirror {b : Bounds d K} (hb : ∀ j, b.1 j ≤ b.2 j) (x : Mat n d K) :
    bhNearest (mirrorBox m b) ((Change.mirror m).mat x) = (Change.mirror m).mat (bhNearest b x) := by
  funext i j
  rw [mirror_mat]
  unfold bhNearest
  dsimp only
  rw [isLow_mirror, isHigh_mirror, mirror_mat]
  refine cases_mirror hb x i j _ ?_ ?_ ?_ <;> intro h1 h2 <;> rw [h1, h2] <;>
    cases hm : m j <;> simp [mirrorBox, hm]

theorem reflectPass_mirror {b : Bounds d K} (hb : ∀ j, b.1 j ≤ b.2 j) (x : Mat n d K) :
    reflectPass (mirrorBox m b) ((Change.mirror m).mat x) =
      (Change.mirror m).mat (reflectPass b x) := by
  funext i j
  rw [mirror_mat]
  unfold reflectPass
  dsimp only
  rw [isLow_mirror, isHigh_mirror, mirror_mat]
  refine cases_mirror hb x i j _ ?_ ?_ ?_ <;> intro h1 h2 <;> rw [h1, h2] <;>
    cases hm : m j <;> simp [mirrorBox, hm] <;> ring

theorem anyOut_mirror (b : Bounds d K) (x : Mat n d K) :
    anyOut (mirrorBox m b) ((Change.mirror m).mat x) = anyOut b x := by
  unfold anyOut
  simp only [rowOut_mirror]

theorem bhReflective_mirror {b : Bounds d K} (hb : ∀ j, b.1 j ≤ b.2 j) (k : Nat) (x : Mat n d K) :
    bhReflective (mirrorBox m b) k ((Change.mirror m).mat x) =
      (bhReflective b k x).map (Change.mirror m).mat := by
  induction k generalizing x with
  | zero =>
    simp only [bhReflective, anyOut_mirror]
    split <;> rfl
  | succ k ih =>
    simp only [bhReflective, anyOut_mirror]
    split
    · rw [reflectPass_mirror hb, ih]
    · rfl

theorem shrinkSigma_mirror {b : Bounds d K} (hb : ∀ j, b.1 j ≤ b.2 j) (mem x : Mat n d K) (i : Fin n) :
    shrinkSigma (mirrorBox m b) ((Change.mirror m).mat mem) ((Change.mirror m).mat x) i =
      shrinkSigma b mem x i := by
  funext j
  unfold shrinkSigma
  dsimp only
  rw [isLow_mirror, isHigh_mirror, mirror_mat, mirror_mat]
  have key : ∀ a b c : K, (-a + b) / (-c + b) = (a - b) / (c - b) := by
    intro a b c
    rw [show -a + b = -(a - b) by ring, show -c + b = -(c - b) by ring, neg_div_neg_eq]
  refine cases_mirror hb x i j _ ?_ ?_ ?_ <;> intro h1 h2 <;> rw [h1, h2] <;>
    cases hm : m j <;> simp [mirrorBox, hm, key]

theorem bhShrink_mirror {b : Bounds d K} (hb : ∀ j, b.1 j ≤ b.2 j) (mem : Option (Mat n d K))
    (x : Mat n d K) :
    bhShrink (mirrorBox m b) (mem.map (Change.mirror m).mat) ((Change.mirror m).mat x) =
      ((bhShrink b mem x).1.map (Change.mirror m).mat,
       (bhShrink b mem x).2.map (Change.mirror m).mat) := by
  cases mem with
  | none => rfl
  | some y =>
    have hz : ∀ i j, decide ((Change.mirror m).mat x i j - (Change.mirror m).mat y i j = 0) =
        decide (x i j - y i j = 0) := by
      intro i j
      apply decide_eq_decide.2
      rw [mirror_mat, mirror_mat]
      split
      · rw [show -x i j - -y i j = -(x i j - y i j) by ring, neg_eq_zero]
      · rfl
    simp only [bhShrink, Option.map_some, out_mirror, hz]
    split
    · rfl
    · split
      · rfl
      · have hr : (fun i j => if (rowLow (mirrorBox m b) ((Change.mirror m).mat x) i ||
            rowHigh (mirrorBox m b) ((Change.mirror m).mat x) i) = true then
            match rowMin (shrinkSigma (mirrorBox m b) ((Change.mirror m).mat y)
              ((Change.mirror m).mat x) i) with
              | some s => (Change.mirror m).mat y i j + s * ((Change.mirror m).mat x i j -
                  (Change.mirror m).mat y i j)
              | none => (Change.mirror m).mat x i j
            else (Change.mirror m).mat x i j) =
            (Change.mirror m).mat fun i j => if (rowLow b x i || rowHigh b x i) = true then
            match rowMin (shrinkSigma b y x i) with
              | some s => y i j + s * (x i j - y i j)
              | none => x i j
            else x i j := by
          funext i j
          rw [rowOut_mirror, shrinkSigma_mirror hb, mirror_mat, mirror_mat, mirror_mat]
          cases hm : m j <;> simp only [Bool.false_eq_true, if_false, if_true]
          split
          · split
            · ring
            · rfl
          · rfl
        exact Prod.ext (congrArg some hr) (congrArg Except.ok hr)

theorem bhIntermediate_mirror {b : Bounds d K} (hb : ∀ j, b.1 j ≤ b.2 j) (mem : Option (Mat n d K))
    (x : Mat n d K) :
    bhIntermediate (mirrorBox m b) (mem.map (Change.mirror m).mat) ((Change.mirror m).mat x) =
      ((bhIntermediate b mem x).1.map (Change.mirror m).mat,
       (bhIntermediate b mem x).2.map (Change.mirror m).mat) := by
  cases mem with
  | none => rfl
  | some y =>
    have hr : (fun i j =>
        if isHigh (mirrorBox m b) ((Change.mirror m).mat x) i j = true then
          1 / 2 * ((Change.mirror m).mat y i j + (mirrorBox m b).2 j)
        else if isLow (mirrorBox m b) ((Change.mirror m).mat x) i j = true then
          1 / 2 * ((Change.mirror m).mat y i j + (mirrorBox m b).1 j)
        else (Change.mirror m).mat x i j) =
        (Change.mirror m).mat fun i j => if isHigh b x i j = true then 1 / 2 * (y i j + b.2 j)
          else if isLow b x i j = true then 1 / 2 * (y i j + b.1 j) else x i j := by
      funext i j
      rw [mirror_mat, isLow_mirror, isHigh_mirror, mirror_mat, mirror_mat]
      refine cases_mirror hb x i j _ ?_ ?_ ?_ <;> intro h1 h2 <;> rw [h1, h2] <;>
        cases hm : m j <;> simp [mirrorBox, hm] <;> ring
    exact Prod.ext (congrArg some hr) (congrArg Except.ok hr)

theorem bhPeriodic_mirror {b : Bounds d K} (hb : ∀ j, b.1 j ≤ b.2 j) (x : Mat n d K) :
    bhPeriodic (mirrorBox m b) ((Change.mirror m).mat x) =
      (bhPeriodic b x).map (Change.mirror m).mat := by
  have hs : ∀ j, |(mirrorBox m b).2 j - (mirrorBox m b).1 j| = |b.2 j - b.1 j| := by
    intro j
    simp only [mirrorBox]
    split
    · rw [show -b.1 j - -b.2 j = b.2 j - b.1 j by ring]
    · rfl
  unfold bhPeriodic
  simp only [out_mirror, hs]
  split
  · rfl
  · refine congrArg Except.ok ?_
    funext i j
    rw [mirror_mat, isLow_mirror, isHigh_mirror, mirror_mat]
    refine cases_mirror hb x i j _ ?_ ?_ ?_ <;> intro h1 h2 <;> rw [h1, h2] <;>
      cases hm : m j <;> simp [mirrorBox, hm]
    · rw [show b.1 j - x i j = -x i j + b.1 j by ring]; ring
    · rw [show -b.2 j + x i j = x i j - b.2 j by ring]; ring

theorem bhCall_mirror {st : String} (hst : st ≠ "random") {b : Bounds d K}
    (hb : ∀ j, b.1 j ≤ b.2 j) (mem : Option (Mat n d K)) (r r' : BHDraw d K)
    (hr : r'.passes = r.passes) (x : Mat n d K) :
    bhCall st (mem.map (Change.mirror m).mat) (mirrorBox m b) r' ((Change.mirror m).mat x) =
      ((bhCall st mem b r x).1.map (Change.mirror m).mat,
       (bhCall st mem b r x).2.map (Change.mirror m).mat) := by
  unfold bhCall
  rw [hr]
  split
  · rw [bhNearest_mirror hb]; rfl
  · split
    · rw [bhReflective_mirror hb]
    · split
      · exact bhShrink_mirror hb mem x
      · split
        · exact bhIntermediate_mirror hb mem x
        · split
          · rw [bhPeriodic_mirror hb]
          · rfl

theorem clampOpt_mirror {c : Option (Clamp d K)} (hc : ∀ c', c = some c' → ∀ j, c'.1 j ≤ c'.2 j)
    (v : Mat n d K) :
    clampOpt (c.map (mirrorBox m)) ((Change.mirror m).vmat v) =
      (Change.mirror m).vmat (clampOpt c v) := by
  cases c with
  | none => rfl
  | some c =>
    have hc := hc c rfl
    funext i j
    rw [mirror_vmat]
    simp only [Option.map_some, clampOpt, applyClamp, mirror_vmat, mirrorBox]
    have hj := hc j
    cases hm : m j
    · rfl
    · simp only [if_true, ge_iff_le, neg_le_neg_iff, decide_eq_true_eq]
      split_ifs with h1 h2 h3 <;> first | rfl | (congr 1; linarith)

theorem vhCall_mirror {st : String} (hst : st ≠ "invert") (mem : Option (Mat n d K))
    {c : Option (Clamp d K)} (hc : ∀ c', c = some c' → ∀ j, c'.1 j ≤ c'.2 j)
    (p : Mat n d K) (b : Option (Bounds d K)) (v : Mat n d K) :
    vhCall st (mem.map (Change.mirror m).mat) (c.map (mirrorBox m))
        { position := some ((Change.mirror m).mat p), bounds := some (b.map (mirrorBox m)) }
        ((Change.mirror m).vmat v) =
      ((vhCall st mem c { position := some p, bounds := some b } v).1.map (Change.mirror m).mat,
       (vhCall st mem c { position := some p, bounds := some b } v).2.map (Change.mirror m).vmat) := by
  unfold vhCall
  split
  · simp only [vhUnmodified, clampOpt_mirror hc]; rfl
  · split
    · unfold vhAdjust
      dsimp only
      cases mem with
      | none => rfl
      | some y =>
        have : (fun i j => (Change.mirror m).mat p i j - (Change.mirror m).mat y i j) =
            (Change.mirror m).vmat fun i j => p i j - y i j := by
          funext i j
          rw [mirror_mat, mirror_mat, mirror_vmat]
          split
          · ring
          · rfl
        simp only [Option.map_some, this, clampOpt_mirror hc]
        rfl
    · split
      · unfold vhZero
        dsimp only
        cases b with
        | none => rfl
        | some b =>
          refine Prod.ext rfl (congrArg Except.ok ?_)
          funext i j
          rw [mirror_vmat, mirror_vmat]
          have h := rowOut_mirror (m := m) b p i
          revert h
          cases rowLow (mirrorBox m b) ((Change.mirror m).mat p) i <;>
            cases rowHigh (mirrorBox m b) ((Change.mirror m).mat p) i <;>
            cases rowLow b p i <;> cases rowHigh b p i <;> intro h <;> simp_all
      · rfl

/-! ### One step -/

variable {cfg : Config n d K}

theorem computeVelocity_mirror {s s' : Swarm n d K}
    (h : SwarmSeen (Change.mirror m).pt (Change.mirror m).vec (fun c => c) s s')
    {c : Option (Clamp d K)} (hc : ∀ c', c = some c' → ∀ j, c'.1 j ≤ c'.2 j) {st : String}
    (hst : st ≠ "invert") (mem : Option (Mat n d K)) (b : Option (Bounds d K)) (r1 r2 : Mat n d K) :
    computeVelocity s' (c.map (mirrorBox m)) st (mem.map (Change.mirror m).mat)
        (b.map (mirrorBox m)) r1 r2 =
      ((computeVelocity s c st mem b r1 r2).1.map (Change.mirror m).mat,
       (computeVelocity s c st mem b r1 r2).2.map (Change.mirror m).vmat) := by
  unfold computeVelocity
  rw [h.options]
  split
  · next c1 c2 w _ _ _ =>
    dsimp only
    have ht : tempVelocity c1 c2 w r1 r2 s' = (Change.mirror m).vmat (tempVelocity c1 c2 w r1 r2 s) :=
      tempVelocity_seen h c1 c2 w r1 r2
    rw [ht, show s'.position = (Change.mirror m).mat s.position from h.position,
      vhCall_mirror hst mem hc, h.bestPos]
    cases s.bestPos with
    | empty =>
      dsimp only [BestPos.map]
      split
      · rfl
      · split
        · split
          · rfl
          · generalize vhCall st mem c { position := some s.position, bounds := some b }
              (tempVelocity c1 c2 w r1 r2 s) = o
            obtain ⟨m, e | v⟩ := o <;> rfl
        · rfl
    | single v => rfl
    | perParticle m => rfl
  · rfl

theorem callPosition_mirror (hf : cfg.MirrorFits) {s s' : Swarm n d K}
    (h : SwarmSeen (Change.mirror m).pt (Change.mirror m).vec (fun c => c) s s')
    (mem : Option (Mat n d K)) {r r' : Draw n d K} (hr : DrawMirror m r r') :
    callPosition (cfg.mirror m) r' (mem.map (Change.mirror m).mat) s' =
      ((callPosition cfg r mem s).1.map (Change.mirror m).mat,
       (callPosition cfg r mem s).2.map (Change.mirror m).mat) := by
  unfold callPosition
  rw [show (cfg.mirror m).kind = cfg.kind from rfl,
    show (cfg.mirror m).bounds = cfg.bounds.map (mirrorBox m) from rfl,
    show (cfg.mirror m).bhStrategy = cfg.bhStrategy from rfl]
  split
  · next hk => exact absurd hk hf.kind
  · unfold computePosition
    dsimp only
    have hx : (fun i j => s'.position i j + s'.velocity i j) =
        (Change.mirror m).mat fun i j => s.position i j + s.velocity i j := by
      funext i j
      rw [h.position, h.velocity]
      simp only [Change.mat, Change.pt, Change.vec]
      ring
    rw [hx]
    cases hb : cfg.bounds with
    | none => rfl
    | some b =>
      rcases hf.bh with h0 | h0
      · rw [hb] at h0; cases h0
      · exact bhCall_mirror h0 (hf.bounds b hb) mem r.bh r'.bh hr.passes _

theorem moveSwarm_mirror (hf : cfg.MirrorFits) {r r' : Draw n d K} (hr : DrawMirror m r r')
    (iters i : Nat) (s s' : Opt n d K) (h : Seen (Change.mirror m) (fun c => c) s s') :
    Seen (Change.mirror m) (fun c => c) (moveSwarm cfg r iters i s).1 (moveSwarm (cfg.mirror m) r' iters i s').1 ∧
      (moveSwarm cfg r iters i s).2 = (moveSwarm (cfg.mirror m) r' iters i s').2 := by
  have ho : callOptions (cfg.mirror m) iters i r' s'.swarm = callOptions cfg iters i r s.swarm := by
    unfold callOptions
    rw [h.swarm.options, hr.oh]
    rfl
  have hb : velBounds (cfg.mirror m) = (velBounds cfg).map (mirrorBox m) := by
    unfold velBounds
    rw [show (cfg.mirror m).kind = cfg.kind from rfl]
    split <;> rfl
  unfold moveSwarm
  rw [ho]
  split
  · exact ⟨h, rfl⟩
  · next o _ =>
    dsimp only
    have hs1 : SwarmSeen (Change.mirror m).pt (Change.mirror m).vec (fun c => c) { s.swarm with options := o } { s'.swarm with options := o } :=
      ⟨h.swarm.1, h.swarm.2, rfl, h.swarm.4, h.swarm.5, h.swarm.6, h.swarm.7, h.swarm.8⟩
    have hv := computeVelocity_mirror hs1 hf.clamp hf.vh s.vhMem (velBounds cfg)
      r.r1 r.r2
    rw [← h.vhMem, ← hb] at hv
    rw [show (cfg.mirror m).clamp = cfg.clamp.map (mirrorBox m) from rfl,
      show (cfg.mirror m).vhStrategy = cfg.vhStrategy from rfl, hr.r1, hr.r2, hv]
    generalize computeVelocity { s.swarm with options := o } cfg.clamp cfg.vhStrategy s.vhMem
      (velBounds cfg) r.r1 r.r2 = q
    obtain ⟨vm, e | v⟩ := q
    · exact ⟨⟨hs1, h.2, h.3, rfl, h.5, h.6, h.7, h.8, h.9, h.10, h.11⟩, rfl⟩
    · dsimp only [Except.map]
      have hs2 : SwarmSeen (Change.mirror m).pt (Change.mirror m).vec (fun c => c) { s.swarm with options := o, velocity := v }
          { s'.swarm with options := o, velocity := (Change.mirror m).vmat v } :=
        ⟨h.swarm.1, rfl, rfl, h.swarm.4, h.swarm.5, h.swarm.6, h.swarm.7, h.swarm.8⟩
      have hp := callPosition_mirror hf hs2 s.bhMem hr
      rw [← h.bhMem] at hp
      rw [hp]
      generalize callPosition cfg r s.bhMem { s.swarm with options := o, velocity := v } = q
      obtain ⟨bm, e | p⟩ := q
      · exact ⟨⟨hs2, h.2, rfl, rfl, h.5, h.6, h.7, h.8, h.9, h.10, h.11⟩, rfl⟩
      · exact ⟨⟨⟨rfl, hs2.2, rfl, hs2.4, hs2.5, hs2.6, hs2.7, hs2.8⟩, h.2, rfl, rfl, h.5, h.6, h.7,
          h.8, h.9, h.10, h.11⟩, rfl⟩

theorem optimize_mirror (hf : cfg.MirrorFits)
    {ev ev' : Nat → Mat n d K → Except Err (Costs n K)} (hev : EvSeen (Change.mirror m) (fun c => c) ev ev')
    (iters : Nat) (nproc : Option Nat) {env env' : Nat → Draw n d K}
    (hr : ∀ i, DrawMirror m (env i) (env' i)) (s s' : Opt n d K) (h : Seen (Change.mirror m) (fun c => c) s s') :
    Seen (Change.mirror m) (fun c => c) (optimize cfg ev iters nproc env s).1 (optimize (cfg.mirror m) ev' iters nproc env' s').1 ∧
      (optimize (cfg.mirror m) ev' iters nproc env' s').2 =
        (optimize cfg ev iters nproc env s).2.map fun r => (r.1, (Change.mirror m).pt r.2) := by
  have hmem : ∀ s s' : Opt n d K, Seen (Change.mirror m) (fun c => c) s s' →
      (prepare (cfg.mirror m) s').bhMem = (prepare cfg s).bhMem.map (Change.mirror m).mat ∧
      (prepare (cfg.mirror m) s').vhMem = (prepare cfg s).vhMem.map (Change.mirror m).mat := by
    intro s s' h
    unfold prepare
    dsimp only
    rw [show (cfg.mirror m).kind = cfg.kind from rfl, h.swarm.position]
    refine ⟨?_, rfl⟩
    split
    · exact h.bhMem
    · rfl
  have key := optimize_sim cfg (cfg.mirror m) ev ev' iters nproc env env' (Seen (Change.mirror m) (fun c => c)) (Seen (Change.mirror m) (fun c => c))
    (fun r r' => r' = (r.1, (Change.mirror m).pt r.2))
    (fun s s' h => ?_) (fun s s' h => ?_) (fun i q s s' h => ?_) (fun s s' h => ?_)
    (fun s s' h => h)
    (fun s s' h => ⟨h.1, h.2, h.3, h.4, h.5, h.6, h.7, h.8, h.9, h.10, by
      show s'.openPools - _ = s.openPools - _
      rw [h.openPools]⟩) s s' h
  · refine ⟨key.1, ?_⟩
    have h2 := key.2
    generalize (optimize cfg ev iters nproc env s).2 = o at h2 ⊢
    generalize (optimize (cfg.mirror m) ev' iters nproc env' s').2 = o' at h2 ⊢
    cases o with
    | error e => rw [exRel_error h2]; rfl
    | ok v => obtain ⟨v', rfl, rfl⟩ := exRel_ok h2; rfl
  · obtain ⟨m1, m2⟩ := hmem s s' h
    refine ⟨⟨h.swarm.1, h.swarm.2, h.swarm.3, h.swarm.4, ?_, h.swarm.6, h.swarm.7, h.swarm.8⟩,
      h.2, m1, m2, h.5, h.6, h.7, h.8, h.9, h.10, ?_⟩
    · funext i
      exact rfl
    · show s'.openPools + _ = s.openPools + _
      rw [h.openPools]
  · obtain ⟨m1, m2⟩ := hmem s s' h
    exact ⟨h.1, h.2, m1, m2, h.5, h.6, h.7, h.8, h.9, h.10, h.11⟩
  · apply iterate_sim cfg (cfg.mirror m) (ev i) (ev' i) (env i) (env' i) iters i q (Seen (Change.mirror m) (fun c => c)) _ _ rfl _
      s s' h
    · intro s s' h
      rw [show s'.swarm.position = (Change.mirror m).mat s.swarm.position from h.swarm.position, hev]
      cases ev i s.swarm.position with
      | error e => rfl
      | ok c => exact recordEval_seen CostMap.id c s s' h
    · intro s s' h
      have hgb := callGbest_seen CostMap.id h.swarm (hr i).oracle cfg (cfg.mirror m) rfl rfl s.top
      rw [h.top, hgb]
      refine ⟨⟨h.1, rfl, h.3, h.4, h.5, h.6, h.7, h.8, h.9, h.10, h.11⟩, ?_⟩
      dsimp only
      cases (callGbest cfg (env i).oracle s.top s.swarm).2 with
      | error e => rfl
      | ok b =>
        refine ⟨recordBest_seen CostMap.id _ b s s' h, ?_⟩
        rw [h.swarm.bestCostVal CostMap.id]
        have hbc : ((b.2.map (fun c => c)).getD XR.pinf) = b.2.getD XR.pinf := by
          cases b.2 with
          | none => exact rfl
          | some c => rfl
        show _ = ftolDelta cfg.ftol ((b.2.map (fun c => c)).getD XR.pinf) s.swarm.bestCostVal
        rw [hbc]
    · intro s s' h
      exact moveSwarm_mirror hf (hr i) iters i s s' h
  · unfold finish
    rw [h.swarm.bestCost, h.swarm.pbestCost, npArgmin_map CostMap.id, h.swarm.pbestPos]
    cases s.swarm.bestCost with
    | none => rfl
    | some c =>
      dsimp only [Option.map_some]
      cases npArgmin s.swarm.pbestCost with
      | none => rfl
      | some i => rfl

theorem resetSwarm_mirror (hf : cfg.MirrorFits) (hs : cfg.MirrorStart)
    {r r' : InitDraw n d K} (hr : InitMirror m r r') :
    ExRel (SwarmSeen (Change.mirror m).pt (Change.mirror m).vec (fun c => c)) (resetSwarm cfg r)
      (resetSwarm (cfg.mirror m) r') := by
  have hk : cfg.isBinary = false := by
    unfold Config.isBinary
    split
    · next hk => exact absurd hk hf.kind
    · rfl
  have hpos : generateSwarm (cfg.bounds.map (mirrorBox m)) cfg.center
        (cfg.initPos.map (Change.mirror m).mat) r'.pos =
      (generateSwarm cfg.bounds cfg.center cfg.initPos r.pos).map (Change.mirror m).mat := by
    unfold generateSwarm
    cases hi : cfg.initPos with
    | some p =>
      cases hbd : cfg.bounds with
      | none => rfl
      | some b =>
        simp only [Option.map_some]
        have hall : (((List.finRange n).all fun i => (List.finRange d).all fun j =>
                decide ((mirrorBox m b).1 j ≤ (Change.mirror m).mat p i j)) &&
              ((List.finRange n).all fun i => (List.finRange d).all fun j =>
                decide ((Change.mirror m).mat p i j ≤ (mirrorBox m b).2 j))) =
            (((List.finRange n).all fun i => (List.finRange d).all fun j => decide (b.1 j ≤ p i j)) &&
              ((List.finRange n).all fun i => (List.finRange d).all fun j =>
                decide (p i j ≤ b.2 j))) := by
          rw [Bool.eq_iff_iff]
          simp only [Bool.and_eq_true, List.all_eq_true, List.mem_finRange, forall_true_left,
            decide_eq_true_eq, mirror_mat, mirrorBox, ← forall_and]
          refine forall_congr' fun i => forall_congr' fun j => ?_
          split
          · rw [neg_le_neg_iff, neg_le_neg_iff, and_comm]
          · rfl
        rw [hall]
        split <;> rfl
    | none =>
      rcases hs.2 with h | ⟨h, hc⟩
      · exact absurd hi h
      · cases hbd : cfg.bounds with
        | none => exact absurd hbd h
        | some b =>
          refine congrArg Except.ok ?_
          funext i j
          rw [mirror_mat, hr.pos]
          simp only [mirrorBox, hc]
          split <;> ring
  have hvel : generateVelocity (cfg.clamp.map (mirrorBox m)) r'.vel =
      (Change.mirror m).vmat (generateVelocity cfg.clamp r.vel) := by
    funext i j
    rw [mirror_vmat]
    unfold generateVelocity
    cases hc : cfg.clamp with
    | none => exact absurd hc hs.1
    | some c =>
      simp only [Option.map_some, hr.vel, mirrorBox]
      split <;> ring
  unfold resetSwarm createSwarm
  rw [show (cfg.mirror m).isBinary = cfg.isBinary from rfl,
    show (cfg.mirror m).initPos = cfg.initPos.map (Change.mirror m).mat from rfl,
    show (cfg.mirror m).bounds = cfg.bounds.map (mirrorBox m) from rfl,
    show (cfg.mirror m).clamp = cfg.clamp.map (mirrorBox m) from rfl,
    show (cfg.mirror m).options = cfg.options from rfl,
    show (cfg.mirror m).center = cfg.center from rfl]
  dsimp only
  rw [hvel]
  simp only [hk, Bool.false_eq_true, if_false]
  rw [hpos]
  generalize generateSwarm cfg.bounds cfg.center cfg.initPos r.pos = o
  cases o with
  | error e => rfl
  | ok p => exact ⟨rfl, rfl, rfl, rfl, rfl, rfl, rfl, rfl⟩

theorem construct_mirror (hf : cfg.MirrorFits) (hs : cfg.MirrorStart)
    {r1 r2 r1' r2' : InitDraw n d K} (h1 : InitMirror m r1 r1') (h2 : InitMirror m r2 r2') :
    ExRel (Seen (Change.mirror m) (fun c => c)) (construct cfg r1 r2) (construct (cfg.mirror m) r1' r2') := by
  have e1 := resetSwarm_mirror hf hs h1
  have e2 := resetSwarm_mirror hf hs h2
  unfold construct
  rw [show (cfg.mirror m).kind = cfg.kind from rfl, show (cfg.mirror m).args = cfg.args from rfl,
    show (cfg.mirror m).ftolIter = cfg.ftolIter from rfl]
  split
  · rfl
  · split
    · rfl
    · cases ha : resetSwarm cfg r1 with
      | error e => rw [ha] at e1; rw [exRel_error e1]; rfl
      | ok a =>
        rw [ha] at e1
        obtain ⟨a', ha', -⟩ := exRel_ok e1
        rw [ha']
        dsimp only
        cases hb : resetSwarm cfg r2 with
        | error e => rw [hb] at e2; rw [exRel_error e2]; rfl
        | ok b =>
          rw [hb] at e2
          obtain ⟨b', hb', h⟩ := exRel_ok e2
          rw [hb']
          exact ⟨h, rfl, rfl, rfl, rfl, rfl, fun _ => rfl, rfl, rfl, rfl, rfl⟩

theorem runOps_mirror (hf : cfg.MirrorFits) (hs : cfg.MirrorStart) {ops ops' : List (Op n d K)}
    (ho : List.Forall₂ (OpMirror m) ops ops') (s s' : Opt n d K) (h : Seen (Change.mirror m) (fun c => c) s s') :
    Seen (Change.mirror m) (fun c => c) (runOps cfg s ops) (runOps (cfg.mirror m) s' ops') := by
  induction ho generalizing s s' with
  | nil => exact h
  | cons hop _ ih =>
    refine ih _ _ ?_
    cases hop with
    | optimize hev hr => exact (optimize_mirror hf hev _ _ hr s s' h).1
    | reset hr =>
      next r r' =>
      have e := resetSwarm_mirror hf hs hr
      unfold stepOp reset
      dsimp only
      cases ha : resetSwarm cfg r with
      | error e' =>
        rw [ha] at e
        rw [exRel_error e]
        exact ⟨h.1, h.2, h.3, h.4, rfl, rfl, fun _ => rfl, rfl, rfl, h.10, h.11⟩
      | ok a =>
        rw [ha] at e
        obtain ⟨a', ha', h'⟩ := exRel_ok e
        rw [ha']
        exact ⟨h', h.2, h.3, h.4, rfl, rfl, fun _ => rfl, rfl, rfl, rfl, h.11⟩


/-! ### C83 -/

/-- **C83.**  No direction is special.  For a continuous optimizer with proper bounds and clamp, a
boundary strategy other than `random` and a velocity strategy other than `invert`: measure some of
the parameters in the opposite direction, in the bounds, the clamp, `init_pos` and the objective, and
start from the mirrored initial swarm.  Then the mirrored optimizer can be constructed as well; with
the same random numbers, after any sequence of calls, every position, velocity, best position and
history is the mirror image of the original one and all costs are the same; and any further call has
the same outcome with the returned position mirrored. -/
theorem C83_mirror (cfg : Config n d K) (m : Fin d → Bool) (hf : cfg.MirrorFits)
    (hs : cfg.MirrorStart) (r1 r2 r1' r2' : InitDraw n d K) (h1 : InitMirror m r1 r1')
    (h2 : InitMirror m r2 r2') (s0 : Opt n d K) (hc : construct cfg r1 r2 = .ok s0) :
    ∃ s0', construct (cfg.mirror m) r1' r2' = .ok s0' ∧
      ∀ ops ops', List.Forall₂ (OpMirror m) ops ops' →
        Seen (Change.mirror m) (fun c => c) (runOps cfg s0 ops) (runOps (cfg.mirror m) s0' ops') ∧
        ∀ ev ev' iters nproc env env', EvSeen (Change.mirror m) (fun c => c) ev ev' →
          (∀ i, DrawMirror m (env i) (env' i)) →
          (optimize (cfg.mirror m) ev' iters nproc env' (runOps (cfg.mirror m) s0' ops')).2 =
            (optimize cfg ev iters nproc env (runOps cfg s0 ops)).2.map
              fun r => (r.1, fun j => if m j then -r.2 j else r.2 j) := by
  have h := construct_mirror hf hs h1 h2
  rw [hc] at h
  obtain ⟨s0', hc', hseen⟩ := exRel_ok h
  refine ⟨s0', hc', fun ops ops' ho => ?_⟩
  have h := runOps_mirror hf hs ho s0 s0' hseen
  refine ⟨h, fun ev ev' iters nproc env env' hev hr => ?_⟩
  rw [(optimize_mirror hf hev iters nproc hr _ _ h).2]
  congr 1
  funext r
  congr 1
  funext j
  exact (mirror_coordinate m r.2 j).1

/-- The two-dimensional bounded problem of the examples, and the mirror in its second coordinate. -/
def Ex.second : Fin 2 → Bool := fun j => decide (j = 1)

def Ex.mirrored : InitDraw 2 2 ℚ :=
  { Ex.init 2 2 with
    pos := fun i j => if Ex.second j then 1 - (Ex.init 2 2).pos i j else (Ex.init 2 2).pos i j
    vel := fun i j => if Ex.second j then 1 - (Ex.init 2 2).vel i j else (Ex.init 2 2).vel i j }

/-- Non-vacuity of C83: the hypotheses hold for a bounded problem. -/
example : ({ Ex.boxed with bhStrategy := "periodic" } : Config 2 2 ℚ).MirrorFits ∧
    ({ Ex.boxed with bhStrategy := "periodic" } : Config 2 2 ℚ).MirrorStart ∧
    InitMirror Ex.second (Ex.init 2 2) Ex.mirrored ∧
    DrawMirror Ex.second (Ex.draw 2 2) (Ex.draw 2 2) := by
  refine ⟨⟨by simp [Ex.boxed, Ex.gcfg], ?_, ?_, Or.inr (by decide), by decide⟩,
    ⟨by simp [Ex.boxed], Or.inr ⟨by simp [Ex.boxed], fun _ => rfl⟩⟩, ⟨fun _ _ => rfl, fun _ _ => rfl⟩,
    ⟨rfl, rfl, rfl, ⟨fun _ _ _ => rfl, fun _ => rfl, fun _ => rfl⟩, rfl⟩⟩
  · intro b hb j
    simp only [Ex.boxed, Option.some.injEq] at hb
    subst hb
    norm_num
  · intro b hb j
    simp only [Ex.boxed, Option.some.injEq] at hb
    subst hb
    norm_num

example : (match construct Ex.boxed (Ex.init 2 2) (Ex.init 2 2),
      construct (Ex.boxed.mirror Ex.second) Ex.mirrored Ex.mirrored with
    | .ok s, .ok s' =>
      match optimize Ex.boxed (fun _ x => .ok fun i => .fin (x i 0 - 3 * x i 1)) 3 none
          (fun _ => Ex.draw 2 2) s,
        optimize (Ex.boxed.mirror Ex.second) (fun _ x => .ok fun i => .fin (x i 0 + 3 * x i 1)) 3 none
          (fun _ => Ex.draw 2 2) s' with
      | (t, .ok (c, p)), (t', .ok (c', p')) =>
        decide (c = c' ∧ p' 0 = p 0 ∧ p' 1 = -p 1 ∧ p 1 ≠ 0 ∧
          t'.swarm.position 0 1 = -t.swarm.position 0 1 ∧
          t'.swarm.position 0 0 = t.swarm.position 0 0 ∧
          t.swarm.position 0 1 ≠ s.swarm.position 0 1)
      | _, _ => false
    | _, _ => false) = true := by decide +kernel

/-- **C83 (limits).**  The velocity strategy `invert` is not symmetric: a particle outside by the
upper side in both coordinates has its velocity multiplied by `-z` once; when one coordinate is
mirrored, it is outside by both kinds of side and its velocity is multiplied by `-z` twice. -/
theorem C83_invert_directed :
    ∃ (b : Bounds 2 ℚ) (p v : Mat 1 2 ℚ) (m : Fin 2 → Bool),
      (∀ j, b.1 j ≤ b.2 j) ∧
      (vhCall "invert" none none ⟨some ((Change.mirror m).mat p),
          some (some (mirrorBox m b)), none⟩ ((Change.mirror m).vmat v)).2 ≠
        (vhCall "invert" none none ⟨some p, some (some b), none⟩ v).2.map
          (Change.mirror m).vmat := by
  refine ⟨(fun _ => 0, fun _ => 1), fun _ _ => 2, fun _ _ => 1, fun j => decide (j = 0), ?_, ?_⟩
  · intro j; norm_num
  · intro h
    have := congrArg (fun o : Except Err (Mat 1 2 ℚ) => match o with
      | .ok v => decide (v 0 1 = -1 / 2)
      | .error _ => false) h
    revert this
    decide +kernel

/-- **C83 (limits).**  The boundary strategy `random` is not symmetric: two particles that leave by
upper sides are sent to one common point, whatever is drawn; when one coordinate is mirrored they
are sent to different points as soon as the two draws differ in some coordinate. -/
theorem C83_random_directed :
    ∃ (b : Bounds 2 ℚ) (x : Mat 2 2 ℚ) (m : Fin 2 → Bool),
      (∀ j, b.1 j ≤ b.2 j) ∧
      (∀ u l, bhRandom b u l x 0 = bhRandom b u l x 1) ∧
      ∀ u l : Vec 2 ℚ, u ≠ l →
        bhRandom (mirrorBox m b) u l ((Change.mirror m).mat x) 0 ≠
          bhRandom (mirrorBox m b) u l ((Change.mirror m).mat x) 1 := by
  let b : Bounds 2 ℚ := (fun _ => 0, fun _ => 1)
  let x : Mat 2 2 ℚ := fun i j => if i.val = j.val then 2 else 1 / 2
  let m : Fin 2 → Bool := fun j => decide (j = 0)
  have e : ∀ i, rowHigh b x i = true ∧ rowLow b x i = false := by decide +kernel
  have e0 : rowLow (mirrorBox m b) ((Change.mirror m).mat x) 0 = true := by decide +kernel
  have e1 : rowLow (mirrorBox m b) ((Change.mirror m).mat x) 1 = false ∧
      rowHigh (mirrorBox m b) ((Change.mirror m).mat x) 1 = true := by decide +kernel
  have hw : ∀ j, (mirrorBox m b).2 j - (mirrorBox m b).1 j = 1 := by decide +kernel
  refine ⟨b, x, m, fun j => zero_le_one, fun u l => ?_, fun u l h heq => h ?_⟩
  · funext j
    simp only [bhRandom, (e 0).1, (e 0).2, (e 1).1, (e 1).2, if_true, Bool.false_eq_true, if_false]
  · funext j
    have := congrFun heq j
    simp only [bhRandom, e0, e1.1, e1.2, hw, if_true, Bool.false_eq_true, if_false] at this
    linarith

end PySwarms
