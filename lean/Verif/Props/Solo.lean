import Verif.Props.Spread
import Verif.Props.Best
import Verif.Props.Stopping
import Verif.Props.Prefix
import Verif.Props.WarmStart
import Verif.Examples

/-!
# Without social coefficient the particles search on their own (C122)
-/

set_option linter.unusedSectionVars false
set_option linter.unusedSimpArgs false

namespace PySwarms

variable {n n' d : Nat} {K : Type} [Field K] [LinearOrder K] [IsStrictOrderedRing K] [Transc K]
  [FloorRing K]

/-! ### Specification -/

/-- Two optimizers, possibly of different sizes, topologies and stopping rules, move their particles
in the same way, and without a social part: `c2` is zero and no option follows a schedule. -/
structure SameSolo (cfg : Config n d K) (cfg' : Config n' d K) : Prop where
  binary : cfg.kind = .binary ↔ cfg'.kind = .binary
  options : cfg.options = cfg'.options
  c2 : cfg.options.lookup "c2" = some 0
  schedule : cfg.ohStrategy = []
  schedule' : cfg'.ohStrategy = []
  bounds : cfg.bounds = cfg'.bounds
  clamp : cfg.clamp = cfg'.clamp
  bh : cfg.bhStrategy = cfg'.bhStrategy
  vh : cfg.vhStrategy = cfg'.vhStrategy

/-- Particle `i` of the first optimizer draws the same numbers as particle `i'` of the second one. -/
structure SameLuck (r : Draw n d K) (r' : Draw n' d K) (i : Fin n) (i' : Fin n') : Prop where
  r1 : r.r1 i = r'.r1 i'
  bh : r.bh = r'.bh
  thr : r.thr = r'.thr

/-- The same, where the numbers of the cognitive part need not agree unless `pb` holds. -/
structure SameNoise (pb : Prop) (r : Draw n d K) (r' : Draw n' d K) (i : Fin n) (i' : Fin n') :
    Prop where
  r1 : pb → r.r1 i = r'.r1 i'
  bh : r.bh = r'.bh
  thr : r.thr = r'.thr

/-- Particle `i` of the first optimizer starts like particle `i'` of the second one. -/
structure SameStart (s : Opt n d K) (s' : Opt n' d K) (i : Fin n) (i' : Fin n') : Prop where
  position : s.swarm.position i = s'.swarm.position i'
  velocity : s.swarm.velocity i = s'.swarm.velocity i'
  pbestPos : s.swarm.pbestPos i = s'.swarm.pbestPos i'

/-! ### Rows of the handlers, for swarms of different sizes -/

theorem isLow_alike {b : Bounds d K} {x : Mat n d K} {x' : Mat n' d K} {i : Fin n} {i' : Fin n'} (h : x i = x' i') (j : Fin d) :
    isLow b x i j = isLow b x' i' j := by unfold isLow; rw [h]

theorem isHigh_alike {b : Bounds d K} {x : Mat n d K} {x' : Mat n' d K} {i : Fin n} {i' : Fin n'} (h : x i = x' i') (j : Fin d) :
    isHigh b x i j = isHigh b x' i' j := by unfold isHigh; rw [h]

theorem rowLow_alike {b : Bounds d K} {x : Mat n d K} {x' : Mat n' d K} {i : Fin n} {i' : Fin n'} (h : x i = x' i') :
    rowLow b x i = rowLow b x' i' := by unfold rowLow isLow; rw [h]

theorem rowHigh_alike {b : Bounds d K} {x : Mat n d K} {x' : Mat n' d K} {i : Fin n} {i' : Fin n'} (h : x i = x' i') :
    rowHigh b x i = rowHigh b x' i' := by unfold rowHigh isHigh; rw [h]

theorem reflectPass_alike {b : Bounds d K} {x : Mat n d K} {x' : Mat n' d K} {i : Fin n} {i' : Fin n'} (h : x i = x' i') :
    reflectPass b x i = reflectPass b x' i' := by
  funext j
  rw [reflectPass_apply, reflectPass_apply, h]

theorem bhReflective_alike {b : Bounds d K} {x y : Mat n d K} {x' y' : Mat n' d K} {m m' : Nat} {i : Fin n} {i' : Fin n'}
    (h : x i = x' i') (hy : bhReflective b m x = .ok y) (hy' : bhReflective b m' x' = .ok y') :
    y i = y' i' := by
  induction m generalizing x x' m' with
  | zero =>
    unfold bhReflective at hy
    split at hy
    · cases hy
    · next hn =>
      cases hy
      have hin := (anyOut_false_iff b _).1 (by simpa using hn)
      funext j
      have := bhReflective_coord hy' i' j (by rw [← h]; exact (hin i j).1)
        (by rw [← h]; exact (hin i j).2)
      rw [this, h]
  | succ m ih =>
    unfold bhReflective at hy
    split at hy
    · cases m' with
      | zero =>
        unfold bhReflective at hy'
        split at hy'
        · cases hy'
        · next hn =>
          cases hy'
          have hin := (anyOut_false_iff b _).1 (by simpa using hn)
          funext j
          have hp : reflectPass b x i j = y' i' j := by
            rw [reflectPass_alike h, reflectPass_apply, if_neg (not_lt.2 (hin i' j).2),
              if_neg (not_lt.2 (hin i' j).1)]
          rw [bhReflective_coord hy i j (by rw [hp]; exact (hin i' j).1)
            (by rw [hp]; exact (hin i' j).2), hp]
      | succ m' =>
        unfold bhReflective at hy'
        split at hy'
        · exact ih (reflectPass_alike h) hy hy'
        · next hn =>
          cases hy'
          have hin := (anyOut_false_iff b _).1 (by simpa using hn)
          funext j
          have hp : reflectPass b x i j = y' i' j := by
            rw [reflectPass_alike h, reflectPass_apply, if_neg (not_lt.2 (hin i' j).2),
              if_neg (not_lt.2 (hin i' j).1)]
          rw [bhReflective_coord hy i j (by rw [hp]; exact (hin i' j).1)
            (by rw [hp]; exact (hin i' j).2), hp]
    · next hn =>
      cases hy
      have hin := (anyOut_false_iff b _).1 (by simpa using hn)
      funext j
      have := bhReflective_coord hy' i' j (by rw [← h]; exact (hin i j).1)
        (by rw [← h]; exact (hin i j).2)
      rw [this, h]

theorem shrinkSigma_alike {b : Bounds d K} {m x : Mat n d K} {m' x' : Mat n' d K} {i : Fin n} {i' : Fin n'} (h : x i = x' i')
    (hm : m i = m' i') : shrinkSigma b m x i = shrinkSigma b m' x' i' := by
  funext j
  unfold shrinkSigma isLow isHigh
  rw [h, hm]

/-- Row `i` of the result of a boundary handler depends only on row `i` of its inputs. -/
theorem bhCall_alike {st : String} {mem m1 : Option (Mat n d K)} {mem' m1' : Option (Mat n' d K)} {b : Bounds d K}
    {r : BHDraw d K} {x y : Mat n d K} {x' y' : Mat n' d K} {i : Fin n} {i' : Fin n'} (h : x i = x' i')
    (hm : memRow mem i = memRow mem' i') (hy : bhCall st mem b r x = (m1, .ok y))
    (hy' : bhCall st mem' b r x' = (m1', .ok y')) : y i = y' i' ∧ memRow m1 i = memRow m1' i' := by
  unfold bhCall at hy hy'
  split at hy
  · next hs =>
    rw [if_pos hs] at hy'
    cases hy; cases hy'
    refine ⟨?_, hm⟩
    funext j
    unfold bhNearest isLow isHigh
    rw [h]
  next hs =>
  rw [if_neg hs] at hy'
  split at hy
  · next hs =>
    rw [if_pos hs] at hy'
    simp only [Prod.mk.injEq] at hy hy'
    rw [← hy.1, ← hy'.1]
    exact ⟨bhReflective_alike h hy.2 hy'.2, hm⟩
  next hs =>
  rw [if_neg hs] at hy'
  split at hy
  · next hs =>
    rw [if_pos hs] at hy'
    cases mem with
    | none =>
      cases mem' with
      | none => cases hy; cases hy'; exact ⟨h, by simp [memRow, h]⟩
      | some m' => simp [memRow] at hm
    | some m =>
      cases mem' with
      | none => simp [memRow] at hm
      | some m' =>
        have hm' : m i = m' i' := by simpa [memRow] using hm
        unfold bhShrink at hy hy'
        dsimp only at hy hy'
        split at hy
        · cases hy
        · split at hy'
          · cases hy'
          · split at hy
            · cases hy
            · next hd =>
              rw [if_neg hd] at hy'
              cases hy; cases hy'
              have : (fun j => if (rowLow b x i || rowHigh b x i) = true then
                  match rowMin (shrinkSigma b m x i) with
                  | some s => m i j + s * (x i j - m i j)
                  | none => x i j else x i j) =
                (fun j => if (rowLow b x' i' || rowHigh b x' i') = true then
                  match rowMin (shrinkSigma b m' x' i') with
                  | some s => m' i' j + s * (x' i' j - m' i' j)
                  | none => x' i' j else x' i' j) := by
                rw [rowLow_alike h, rowHigh_alike h, shrinkSigma_alike h hm', h, hm']
              exact ⟨this, congrArg some this⟩
  next hs =>
  rw [if_neg hs] at hy'
  split at hy
  · next hs =>
    rw [if_pos hs] at hy'
    cases hy; cases hy'
    refine ⟨?_, hm⟩
    funext j
    unfold bhRandom
    rw [rowLow_alike h, rowHigh_alike h, h]
  next hs =>
  rw [if_neg hs] at hy'
  split at hy
  · next hs =>
    rw [if_pos hs] at hy'
    cases mem with
    | none =>
      cases mem' with
      | none => cases hy; cases hy'; exact ⟨h, by simp [memRow, h]⟩
      | some m' => simp [memRow] at hm
    | some m =>
      cases mem' with
      | none => simp [memRow] at hm
      | some m' =>
        have hm' : m i = m' i' := by simpa [memRow] using hm
        unfold bhIntermediate at hy hy'
        cases hy; cases hy'
        have : (fun j => if isHigh b x i j = true then (1 / 2) * (m i j + b.2 j) else
            if isLow b x i j = true then (1 / 2) * (m i j + b.1 j) else x i j) =
          (fun j => if isHigh b x' i' j = true then (1 / 2) * (m' i' j + b.2 j) else
            if isLow b x' i' j = true then (1 / 2) * (m' i' j + b.1 j) else x' i' j) := by
          funext j
          rw [isLow_alike h, isHigh_alike h, h, hm']
        exact ⟨this, congrArg some this⟩
  next hs =>
  rw [if_neg hs] at hy'
  split at hy
  · next hs =>
    rw [if_pos hs] at hy'
    simp only [Prod.mk.injEq] at hy hy'
    obtain ⟨e1, e2⟩ := hy
    obtain ⟨e1', e2'⟩ := hy'
    subst e1 e1'
    refine ⟨?_, hm⟩
    unfold bhPeriodic at e2 e2'
    split at e2
    · cases e2
    · split at e2'
      · cases e2'
      · cases e2; cases e2'
        funext j
        dsimp only
        rw [isLow_alike h, isHigh_alike h, h]
  · cases hy

theorem clampOpt_alike {c : Option (Clamp d K)} {v : Mat n d K} {v' : Mat n' d K} {i : Fin n} {i' : Fin n'} (h : v i = v' i') :
    clampOpt c v i = clampOpt c v' i' := by
  unfold clampOpt
  cases c with
  | none => exact h
  | some c => funext j; dsimp only; unfold applyClamp; rw [h]

/-- Row `i` of the result of a velocity handler depends only on row `i` of its inputs. -/
theorem vhCall_alike {st : String} {mem m1 : Option (Mat n d K)} {mem' m1' : Option (Mat n' d K)} {c : Option (Clamp d K)}
    {b : Option (Bounds d K)} {x v y : Mat n d K} {x' v' y' : Mat n' d K} {i : Fin n} {i' : Fin n'} (h : x i = x' i')
    (hv : v i = v' i') (hm : memRow mem i = memRow mem' i')
    (hy : vhCall st mem c { position := some x, bounds := some b } v = (m1, .ok y))
    (hy' : vhCall st mem' c { position := some x', bounds := some b } v' = (m1', .ok y')) :
    y i = y' i' ∧ memRow m1 i = memRow m1' i' := by
  unfold vhCall at hy hy'
  split at hy
  · next hs =>
    rw [if_pos hs] at hy'
    cases hy; cases hy'
    exact ⟨clampOpt_alike hv, hm⟩
  next hs =>
  rw [if_neg hs] at hy'
  split at hy
  · next hs =>
    rw [if_pos hs] at hy'
    cases mem with
    | none =>
      cases mem' with
      | none => cases hy; cases hy'; exact ⟨hv, by simp [memRow, h]⟩
      | some m' => simp [memRow] at hm
    | some m =>
      cases mem' with
      | none => simp [memRow] at hm
      | some m' =>
        have hm' : m i = m' i' := by simpa [memRow] using hm
        cases hy; cases hy'
        exact ⟨clampOpt_alike (by rw [h, hm']), by simp [memRow, h]⟩
  next hs =>
  rw [if_neg hs] at hy'
  split at hy
  · next hs =>
    rw [if_pos hs] at hy'
    cases b with
    | none => cases hy
    | some b =>
      cases hy; cases hy'
      refine ⟨clampOpt_alike ?_, hm⟩
      dsimp only
      rw [rowLow_alike h, rowHigh_alike h, hv]
  next hs =>
  rw [if_neg hs] at hy'
  split at hy
  · next hs =>
    rw [if_pos hs] at hy'
    cases b with
    | none => cases hy
    | some b =>
      cases hy; cases hy'
      refine ⟨?_, hm⟩
      dsimp only
      rw [rowLow_alike h, rowHigh_alike h, hv]
  · cases hy

/-! ### One iteration -/

/-- Particle `i` of the first optimizer is in the situation of particle `i'` of the second one; their
personal bests agree if `pb` holds. -/
structure Paired (pb : Prop) (cfg : Config n d K) (s : Opt n d K) (s' : Opt n' d K) (i : Fin n)
    (i' : Fin n') : Prop where
  position : s.swarm.position i = s'.swarm.position i'
  velocity : s.swarm.velocity i = s'.swarm.velocity i'
  pbestPos : pb → s.swarm.pbestPos i = s'.swarm.pbestPos i'
  pbestCost : pb → s.swarm.pbestCost i = s'.swarm.pbestCost i'
  vhMem : memRow s.vhMem i = memRow s'.vhMem i'
  bhMem : cfg.kind ≠ .binary → memRow s.bhMem i = memRow s'.bhMem i'
  options : s.swarm.options = cfg.options
  options' : s'.swarm.options = cfg.options

theorem recordEval_alike {pb : Prop} {cfg : Config n d K} {c : Costs n K} {c' : Costs n' K} {s : Opt n d K}
    {s' : Opt n' d K} {i : Fin n} {i' : Fin n'} (h : Paired pb cfg s s' i i') (hc : pb → c i = c' i') :
    Paired pb cfg (recordEval c s) (recordEval c' s') i i' := by
  refine ⟨h.1, h.2, ?_, ?_, h.5, h.6, h.7, h.8⟩
  · intro hp
    rw [recordEval_pbestPos, recordEval_pbestPos, hc hp, h.pbestCost hp, h.pbestPos hp, h.position]
  · intro hp
    rw [recordEval_pbestCost, recordEval_pbestCost, hc hp, h.pbestCost hp]

theorem callOptions_solo {cfg : Config n d K} (hs : cfg.ohStrategy = []) (iters t : Nat)
    (r : Draw n d K) (s : Swarm n d K) (ho : s.options = cfg.options) :
    callOptions cfg iters t r s = .ok cfg.options := by
  unfold callOptions
  rw [hs]
  cases cfg.kind <;> simp [ohCall, ho]

theorem binaryPosition_alike {thr thr' : Vec d K} {v : Mat n d K} {v' : Mat n' d K} {i : Fin n}
    {i' : Fin n'} (h : v i = v' i') (ht : thr = thr') :
    binaryPosition thr v i = binaryPosition thr' v' i' := by
  funext k
  unfold binaryPosition
  rw [h, ht]

theorem moveSwarm_alike {pb : Prop} {cfg : Config n d K} {cfg' : Config n' d K} (hcfg : SameSolo cfg cfg')
    {r : Draw n d K} {r' : Draw n' d K} {iters iters' t : Nat} {s s1 : Opt n d K}
    {s' s1' : Opt n' d K} {i : Fin n} {i' : Fin n'} (hc1 : ¬ pb → cfg.options.lookup "c1" = some 0)
    (hr : SameNoise pb r r' i i')
    (h : Paired pb cfg s s' i i') (hm : moveSwarm cfg r iters t s = (s1, .ok ()))
    (hm' : moveSwarm cfg' r' iters' t s' = (s1', .ok ())) : Paired pb cfg s1 s1' i i' := by
  have hc := moveSwarm_cases cfg r iters t s
  have hc' := moveSwarm_cases cfg' r' iters' t s'
  rw [hm] at hc
  rw [hm'] at hc'
  have ho' := h.options'
  cases hc with
  | ok o vm v bm p ho hv hp =>
    cases hc' with
    | ok o' vm' v' bm' p' hoo hv' hp' =>
      rw [callOptions_solo hcfg.schedule _ _ _ _ h.options] at ho
      rw [callOptions_solo hcfg.schedule' _ _ _ _ (ho'.trans hcfg.options), ← hcfg.options] at hoo
      cases ho; cases hoo
      obtain ⟨c1, c2, w, e1, e2, e3, e4⟩ := computeVelocity_ok hv
      obtain ⟨c1', c2', w', f1, f2, f3, f4⟩ := computeVelocity_ok hv'
      dsimp only at e1 e2 e3 f1 f2 f3
      rw [e1] at f1; rw [e2] at f2; rw [e3] at f3
      cases f1; cases f2; cases f3
      rw [hcfg.c2] at e2
      cases e2
      have ht : tempVelocity c1 0 w r.r1 r.r2 { s.swarm with options := cfg.options } i =
          tempVelocity c1 0 w r'.r1 r'.r2 { s'.swarm with options := cfg.options } i' := by
        funext k
        unfold tempVelocity
        dsimp only
        by_cases hpb : pb
        · rw [h.position, h.velocity, h.pbestPos hpb, hr.r1 hpb]
          simp only [zero_mul]
        · rw [hc1 hpb] at e1
          cases e1
          rw [h.velocity]
          simp only [zero_mul]
      have hvb : velBounds cfg = velBounds cfg' := by
        unfold velBounds
        by_cases hb : cfg.kind = .binary
        · rw [hb, hcfg.binary.1 hb]
        · have hb' := fun x => hb (hcfg.binary.2 x)
          cases hk : cfg.kind <;> cases hk' : cfg'.kind <;>
            first | exact absurd hk hb | exact absurd hk' hb' | exact hcfg.bounds
      rw [← hcfg.vh, ← hcfg.clamp, ← hvb] at f4
      obtain ⟨hvr, hvm⟩ := vhCall_alike (i' := i') h.position ht h.vhMem e4 f4
      have hpr : p i = p' i' ∧ (cfg.kind ≠ .binary → memRow bm i = memRow bm' i') := by
        unfold callPosition at hp hp'
        have key : cfg.kind ≠ .binary → computePosition { s.swarm with options := cfg.options, velocity := v } cfg.bounds
              cfg.bhStrategy s.bhMem r.bh = (bm, .ok p) →
            computePosition { s'.swarm with options := cfg.options, velocity := v' } cfg'.bounds
              cfg'.bhStrategy s'.bhMem r'.bh = (bm', .ok p') →
            p i = p' i' ∧ (cfg.kind ≠ .binary → memRow bm i = memRow bm' i') := by
          intro hnb q q'
          rw [← hcfg.bounds, ← hcfg.bh, ← hr.bh] at q'
          unfold computePosition at q q'
          have hx : (fun k => s.swarm.position i k + v i k) =
              fun k => s'.swarm.position i' k + v' i' k := by rw [h.position, hvr]
          cases hbd : cfg.bounds with
          | none =>
            rw [hbd] at q q'
            cases q; cases q'
            exact ⟨hx, h.bhMem⟩
          | some b =>
            rw [hbd] at q q'
            have := bhCall_alike (i' := i') hx (h.bhMem hnb) q q'
            exact ⟨this.1, fun _ => this.2⟩
        by_cases hb : cfg.kind = .binary
        · rw [hb] at hp
          rw [hcfg.binary.1 hb] at hp'
          cases hp; cases hp'
          refine ⟨?_, fun hn => absurd hb hn⟩
          exact binaryPosition_alike hvr hr.thr
        · have hb' := fun x => hb (hcfg.binary.2 x)
          cases hk : cfg.kind <;> cases hk' : cfg'.kind <;>
            first
            | exact absurd hk hb
            | exact absurd hk' hb'
            | (rw [hk] at hp; rw [hk'] at hp'; rw [hk] at key; exact key (by simp) hp hp')
      exact ⟨hpr.1, hvr, h.pbestPos, h.pbestCost, hvm, hpr.2, rfl, rfl⟩

theorem recordBest_alike {pb : Prop} {cfg : Config n d K} {s : Opt n d K} {s' : Opt n' d K} {i : Fin n}
    {i' : Fin n'} (h : Paired pb cfg s s' i i') (t : TopState n) (t' : TopState n') (g : GBest n d K)
    (g' : GBest n' d K) : Paired pb cfg (recordBest t g s) (recordBest t' g' s') i i' :=
  ⟨h.1, h.2, h.3, h.4, h.5, h.6, h.7, h.8⟩

/-- What particle `i` did in the evaluations: its positions and their costs. -/
def rowLog (i : Fin n) (E : List (Mat n d K × Costs n K)) : List (Vec d K × XR K) :=
  E.map fun e => (e.1 i, e.2 i)

/-- One continued iteration of both runs. -/
theorem iterate_alike {pb : Prop} {cfg : Config n d K} {cfg' : Config n' d K} (hcfg : SameSolo cfg cfg')
    {ev : Mat n d K → Except Err (Costs n K)} {ev' : Mat n' d K → Except Err (Costs n' K)}
    {r : Draw n d K} {r' : Draw n' d K} {iters iters' t : Nat} {q q1 q' q1' : List Bool}
    {s s1 : Opt n d K} {s' s1' : Opt n' d K} {i : Fin n} {i' : Fin n'} (hc1 : ¬ pb → cfg.options.lookup "c1" = some 0)
    (hr : SameNoise pb r r' i i')
    (h : Paired pb cfg s s' i i')
    (hev : ∀ c c', ev s.swarm.position = .ok c → ev' s'.swarm.position = .ok c' →
      pb → c i = c' i')
    (hi : iterate cfg ev r iters t q s = (s1, .ok (.continue q1)))
    (hi' : iterate cfg' ev' r' iters' t q' s' = (s1', .ok (.continue q1'))) :
    Paired pb cfg s1 s1' i i' ∧ ∃ e e', s1.evals = s.evals ++ [e] ∧ s1'.evals = s'.evals ++ [e'] ∧
      (pb → (e.1 i, e.2 i) = (e'.1 i', e'.2 i')) := by
  have hc := iterate_cases cfg ev r iters t q s
  have hc' := iterate_cases cfg' ev' r' iters' t q' s'
  rw [hi] at hc
  rw [hi'] at hc'
  cases hc with
  | moved c tp g _ he hg hns hm =>
    cases hc' with
    | moved c' tp' g' _ he' hg' hns' hm' =>
      have hcc := hev c c' he he'
      refine ⟨moveSwarm_alike hcfg hc1 hr (recordBest_alike (recordEval_alike h hcc) tp tp' g g') hm hm',
        (s.swarm.position, c), (s'.swarm.position, c'), ?_, ?_, ?_⟩
      · have hf := moveSwarm_frame cfg r iters t (recordBest tp g (recordEval c s))
        rw [hm] at hf
        obtain ⟨-, -, -, -, -, -, -, -, -, -, -, fe, -⟩ := hf
        exact fe
      · have hf := moveSwarm_frame cfg' r' iters' t (recordBest tp' g' (recordEval c' s'))
        rw [hm'] at hf
        obtain ⟨-, -, -, -, -, -, -, -, -, -, -, fe, -⟩ := hf
        exact fe
      · exact fun hp => Prod.ext h.position (hcc hp)

/-! ### The loop -/

/-- The first entries of the histories of a loop, and whether it goes on. -/
theorem loop_entry (cfg : Config n d K) (ev : Nat → Mat n d K → Except Err (Costs n K))
    (env : Nat → Draw n d K) (iters m i : Nat) (q : List Bool) (s : Opt n d K) :
    (∀ P, (loop cfg ev env iters (m + 1) i q s).1.posHistory[s.posHistory.length]? = some P →
      P = s.swarm.position) ∧
    (∀ V, (loop cfg ev env iters (m + 1) i q s).1.velocityHistory[s.velocityHistory.length]? =
      some V → V = s.swarm.velocity) ∧
    ((∃ q1 s1, iterate cfg (ev i) (env i) iters i q s = (s1, .ok (.continue q1)) ∧
        s1.posHistory = s.posHistory ++ [s.swarm.position] ∧
        s1.velocityHistory = s.velocityHistory ++ [s.swarm.velocity]) ∨
      (loop cfg ev env iters (m + 1) i q s).1.posHistory.length ≤ s.posHistory.length + 1 ∧
      (loop cfg ev env iters (m + 1) i q s).1.velocityHistory.length ≤
        s.velocityHistory.length + 1) := by
  rw [loop]
  cases hi : iterate cfg (ev i) (env i) iters i q s with
  | mk s1 o =>
    have hh := iterate_history cfg (ev i) (env i) iters i q s s1 o hi
    have snoc : ∀ {α : Type} (l : List α) (a b : α), (l ++ [a])[l.length]? = some b → b = a := by
      intro α l a b h
      rw [List.getElem?_concat_length] at h
      exact (Option.some.inj h).symm
    cases o with
    | error e =>
      dsimp only
      rcases hh with ⟨h1, h2, -⟩ | ⟨h1, h2⟩
      · rw [h1, h2]
        refine ⟨fun P h => ?_, fun V h => ?_, .inr ⟨by omega, by omega⟩⟩
        · rw [List.getElem?_eq_none (by omega)] at h; cases h
        · rw [List.getElem?_eq_none (by omega)] at h; cases h
      · rw [h1, h2]
        exact ⟨fun P h => snoc _ _ _ h, fun V h => snoc _ _ _ h, .inr ⟨by simp, by simp⟩⟩
    | ok fl =>
      rcases hh with ⟨-, -, e, he⟩ | ⟨h1, h2⟩
      · cases he
      · cases fl with
        | stop =>
          dsimp only
          rw [h1, h2]
          exact ⟨fun P h => snoc _ _ _ h, fun V h => snoc _ _ _ h, .inr ⟨by simp, by simp⟩⟩
        | «continue» q1 =>
          dsimp only
          have hg := loop_grows cfg ev env iters m (i + 1) q1 s1
          refine ⟨fun P h => ?_, fun V h => ?_, .inl ⟨q1, s1, rfl, h1, h2⟩⟩
          · obtain ⟨l, hl⟩ := hg.pos
            rw [← hl, h1, List.append_assoc, List.getElem?_append_right (le_refl _)] at h
            simpa using h.symm
          · obtain ⟨l, hl⟩ := hg.velocity
            rw [← hl, h2, List.append_assoc, List.getElem?_append_right (le_refl _)] at h
            simpa using h.symm

theorem loop_alike {pb : Prop} {cfg : Config n d K} {cfg' : Config n' d K} (hcfg : SameSolo cfg cfg')
    {ev : Nat → Mat n d K → Except Err (Costs n K)} {ev' : Nat → Mat n' d K → Except Err (Costs n' K)}
    (i : Fin n) (i' : Fin n')
    (hev : pb → ∀ t x x' c c', ev t x = .ok c → ev' t x' = .ok c' → x i = x' i' → c i = c' i')
    (env : Nat → Draw n d K) (env' : Nat → Draw n' d K)
    (iters iters' : Nat)
    (hc1 : ¬ pb → cfg.options.lookup "c1" = some 0)
    (hr : ∀ t, SameNoise pb (env t) (env' t) i i') (m m' t : Nat) (q q' : List Bool)
    (s : Opt n d K) (s' : Opt n' d K) (h : Paired pb cfg s s' i i') (u : Nat) :
    (∀ P P', (loop cfg ev env iters m t q s).1.posHistory[s.posHistory.length + u]? = some P →
      (loop cfg' ev' env' iters' m' t q' s').1.posHistory[s'.posHistory.length + u]? = some P' →
      P i = P' i') ∧
    (∀ V V', (loop cfg ev env iters m t q s).1.velocityHistory[s.velocityHistory.length + u]? =
        some V →
      (loop cfg' ev' env' iters' m' t q' s').1.velocityHistory[s'.velocityHistory.length + u]? =
        some V' → V i = V' i') := by
  induction m generalizing m' t q q' s s' u with
  | zero =>
    simp only [loop]
    constructor
    · intro P P' h; rw [List.getElem?_eq_none (by omega)] at h; cases h
    · intro P P' h; rw [List.getElem?_eq_none (by omega)] at h; cases h
  | succ m ih =>
    cases m' with
    | zero =>
      simp only [loop]
      constructor
      · intro P P' _ h; rw [List.getElem?_eq_none (by omega)] at h; cases h
      · intro P P' _ h; rw [List.getElem?_eq_none (by omega)] at h; cases h
    | succ m' =>
    obtain ⟨a1, a2, a3⟩ := loop_entry cfg ev env iters m t q s
    obtain ⟨b1, b2, b3⟩ := loop_entry cfg' ev' env' iters' m' t q' s'
    cases u with
    | zero =>
      refine ⟨fun P P' hP hP' => ?_, fun V V' hP hP' => ?_⟩
      · rw [a1 P hP, b1 P' hP', h.position]
      · rw [a2 V hP, b2 V' hP', h.velocity]
    | succ u =>
      rcases a3 with ⟨q1, s1, hi, p1, v1⟩ | ⟨a, b⟩
      · rcases b3 with ⟨q1', s1', hi', p1', v1'⟩ | ⟨a, b⟩
        · obtain ⟨htw, -⟩ := iterate_alike hcfg hc1 (hr t) h (fun c c' hc hc' hp =>
            hev hp t _ _ c c' hc hc' h.position) hi hi'
          have := ih m' (t + 1) q1 q1' s1 s1' htw u
          rw [p1, p1', v1, v1'] at this
          simp only [List.length_append, List.length_singleton] at this
          have ar : ∀ a : Nat, a + 1 + u = a + (u + 1) := by intro a; omega
          rw [loop, hi, loop, hi']
          simpa only [ar] using this
        · refine ⟨fun P P' h h' => ?_, fun V V' h h' => ?_⟩
          · rw [List.getElem?_eq_none (by omega)] at h'; cases h'
          · rw [List.getElem?_eq_none (by omega)] at h'; cases h'
      · refine ⟨fun P P' h h' => ?_, fun V V' h h' => ?_⟩
        · rw [List.getElem?_eq_none (by omega)] at h; cases h
        · rw [List.getElem?_eq_none (by omega)] at h; cases h

theorem iterate_full {cfg : Config n d K} (hf : cfg.ftol = XR.ninf) (hw : 0 < cfg.window)
    {ev : Mat n d K → Except Err (Costs n K)} {r : Draw n d K} {iters t : Nat} {q : List Bool}
    {s s1 : Opt n d K} : iterate cfg ev r iters t q s ≠ (s1, .ok .stop) := by
  intro h
  have hc := iterate_cases cfg ev r iters t q s
  rw [h] at hc
  cases hc with
  | stop c tp g he hg h1 h2 =>
    rw [hf, ftolDelta_ninf, dequeAppend_false _ hw] at h2
    cases h2

theorem loop_full_alike {cfg : Config n d K} {cfg' : Config n' d K} (hcfg : SameSolo cfg cfg')
    (hf : cfg.ftol = XR.ninf) (hw : 0 < cfg.window) (hf' : cfg'.ftol = XR.ninf)
    (hw' : 0 < cfg'.window)
    {ev : Nat → Mat n d K → Except Err (Costs n K)} {ev' : Nat → Mat n' d K → Except Err (Costs n' K)}
    {φ : Nat → Fin n → Vec d K → XR K} {φ' : Nat → Fin n' → Vec d K → XR K}
    (hev : RowCost ev φ) (hev' : RowCost ev' φ') (env : Nat → Draw n d K) (env' : Nat → Draw n' d K)
    (iters iters' : Nat) (i : Fin n) (i' : Fin n') (hφ : ∀ t, φ t i = φ' t i')
    (hr : ∀ t, SameLuck (env t) (env' t) i i') (m t : Nat) (q q' : List Bool)
    (s s2 : Opt n d K) (s' s2' : Opt n' d K) (h : Paired True cfg s s' i i')
    (hl : loop cfg ev env iters m t q s = (s2, .ok ()))
    (hl' : loop cfg' ev' env' iters' m t q' s' = (s2', .ok ())) :
    Paired True cfg s2 s2' i i' ∧ ∃ E E', s2.evals = s.evals ++ E ∧ s2'.evals = s'.evals ++ E' ∧
      rowLog i E = rowLog i' E' := by
  induction m generalizing t q q' s s' with
  | zero =>
    cases hl; cases hl'
    exact ⟨h, [], [], by simp, by simp, rfl⟩
  | succ m ih =>
    rw [loop] at hl hl'
    cases hi : iterate cfg (ev t) (env t) iters t q s with
    | mk s1 o =>
      cases hi' : iterate cfg' (ev' t) (env' t) iters' t q' s' with
      | mk s1' o' =>
        rw [hi] at hl
        rw [hi'] at hl'
        match o, o', hi, hi', hl, hl' with
        | .error _, _, _, _, hl, _ => cases hl
        | .ok .stop, _, hi, _, _, _ => exact absurd hi (iterate_full hf hw)
        | .ok (.continue _), .error _, _, _, _, hl' => cases hl'
        | .ok (.continue _), .ok .stop, _, hi', _, _ => exact absurd hi' (iterate_full hf' hw')
        | .ok (.continue q1), .ok (.continue q1'), hi, hi', hl, hl' =>
          obtain ⟨htw, e, e', he, he', hee⟩ := iterate_alike hcfg (fun h => absurd trivial h)
            ⟨fun _ => (hr t).r1, (hr t).bh, (hr t).thr⟩ h (fun c c' hc hc' _ => by
            rw [hev t _ _ hc, hev' t _ _ hc', hφ, h.position]) hi hi'
          obtain ⟨h1, E, E', h2, h3, h4⟩ := ih (t + 1) q1 q1' s1 s1' htw hl hl'
          refine ⟨h1, e :: E, e' :: E', ?_, ?_, ?_⟩
          · rw [h2, he, List.append_assoc]; rfl
          · rw [h3, he', List.append_assoc]; rfl
          · unfold rowLog at h4 ⊢
            rw [List.map_cons, List.map_cons, h4, hee trivial]

theorem start_alike {pb : Prop} {cfg : Config n d K} {cfg' : Config n' d K} (hcfg : SameSolo cfg cfg')
    {s : Opt n d K} {s' : Opt n' d K} {i : Fin n} {i' : Fin n'} (hp : s.swarm.position i = s'.swarm.position i')
    (hv : s.swarm.velocity i = s'.swarm.velocity i')
    (hb : pb → s.swarm.pbestPos i = s'.swarm.pbestPos i')
    (ho : s.swarm.options = cfg.options) (ho' : s'.swarm.options = cfg'.options)
    (nproc nproc' : Option Nat) :
    Paired pb cfg (startState cfg nproc s) (startState cfg' nproc' s') i i' := by
  refine ⟨hp, hv, hb, fun _ => rfl, ?_, ?_, ho, ho'.trans hcfg.options.symm⟩
  · exact congrArg some hp
  · intro hb
    have hb' := fun x => hb (hcfg.binary.2 x)
    unfold startState prepare
    dsimp only
    cases hk : cfg.kind <;> cases hk' : cfg'.kind <;>
      first
      | exact absurd hk hb
      | exact absurd hk' hb'
      | exact congrArg some hp

/-! ### The theorems -/

/-- C122: with `c2 = 0` a particle moves in the same way whatever other particles there are.  Two
optimizers, possibly with different numbers of particles, topologies, stopping rules and numbers of
iterations; particle `i` of the first and particle `i'` of the second start alike, draw the same
numbers and have the same costs: in every iteration that both calls record, they are at the same
position with the same velocity. -/
theorem C122_alone (cfg : Config n d K) (cfg' : Config n' d K) (hcfg : SameSolo cfg cfg')
    (ev : Nat → Mat n d K → Except Err (Costs n K)) (ev' : Nat → Mat n' d K → Except Err (Costs n' K))
    (φ : Nat → Fin n → Vec d K → XR K) (φ' : Nat → Fin n' → Vec d K → XR K)
    (hev : RowCost ev φ) (hev' : RowCost ev' φ') (iters iters' : Nat) (nproc nproc' : Option Nat)
    (env : Nat → Draw n d K) (env' : Nat → Draw n' d K) (s : Opt n d K) (s' : Opt n' d K)
    (ho : s.swarm.options = cfg.options) (ho' : s'.swarm.options = cfg'.options)
    (i : Fin n) (i' : Fin n') (hs : SameStart s s' i i') (hφ : ∀ t, φ t i = φ' t i')
    (hr : ∀ t, SameLuck (env t) (env' t) i i') (t : Nat) :
    (∀ P P', (optimize cfg ev iters nproc env s).1.posHistory[s.posHistory.length + t]? = some P →
      (optimize cfg' ev' iters' nproc' env' s').1.posHistory[s'.posHistory.length + t]? = some P' →
      P i = P' i') ∧
    (∀ V V', (optimize cfg ev iters nproc env s).1.velocityHistory[
        s.velocityHistory.length + t]? = some V →
      (optimize cfg' ev' iters' nproc' env' s').1.velocityHistory[
        s'.velocityHistory.length + t]? = some V' → V i = V' i') := by
  by_cases hp : nproc = some 0
  · subst hp
    unfold optimize
    simp only [if_true]
    refine ⟨fun P P' h => ?_, fun V V' h => ?_⟩
    · rw [List.getElem?_eq_none (by omega)] at h; cases h
    · rw [List.getElem?_eq_none (by omega)] at h; cases h
  by_cases hp' : nproc' = some 0
  · subst hp'
    have hl : (optimize cfg' ev' iters' (some 0) env' s').1.posHistory = s'.posHistory ∧
        (optimize cfg' ev' iters' (some 0) env' s').1.velocityHistory = s'.velocityHistory := by
      unfold optimize
      simp only [if_true, prepare, and_self]
    rw [hl.1, hl.2]
    refine ⟨fun P P' _ h => ?_, fun V V' _ h => ?_⟩
    · rw [List.getElem?_eq_none (by omega)] at h; cases h
    · rw [List.getElem?_eq_none (by omega)] at h; cases h
  have r := optimize_records cfg ev iters nproc hp env s
  have r' := optimize_records cfg' ev' iters' nproc' hp' env' s'
  rw [r.pos, r'.pos, r.velocity, r'.velocity]
  exact loop_alike (pb := True) hcfg i i' (fun _ t x x' c c' hc hc' hx => by
      rw [hev t _ _ hc, hev' t _ _ hc', hφ, hx]) env env' iters iters'
    (fun h => absurd trivial h) (fun t => ⟨fun _ => (hr t).r1, (hr t).bh, (hr t).thr⟩) iters iters' 0 [] []
    (startState cfg nproc s) (startState cfg' nproc' s') (start_alike hcfg hs.1 hs.2 (fun _ => hs.3) ho ho' nproc nproc') t

/-- C122: after two calls with the same number of iterations, without early stopping, that both
return, the two particles have the same position, velocity and personal best. -/
theorem C122_after (cfg : Config n d K) (cfg' : Config n' d K) (hcfg : SameSolo cfg cfg')
    (hf : cfg.ftol = XR.ninf) (hw : 0 < cfg.window) (hf' : cfg'.ftol = XR.ninf)
    (hw' : 0 < cfg'.window)
    (ev : Nat → Mat n d K → Except Err (Costs n K)) (ev' : Nat → Mat n' d K → Except Err (Costs n' K))
    (φ : Nat → Fin n → Vec d K → XR K) (φ' : Nat → Fin n' → Vec d K → XR K)
    (hev : RowCost ev φ) (hev' : RowCost ev' φ') (iters : Nat) (nproc nproc' : Option Nat)
    (env : Nat → Draw n d K) (env' : Nat → Draw n' d K) (s : Opt n d K) (s' : Opt n' d K)
    (ho : s.swarm.options = cfg.options) (ho' : s'.swarm.options = cfg'.options)
    (i : Fin n) (i' : Fin n') (hs : SameStart s s' i i') (hφ : ∀ t, φ t i = φ' t i')
    (hr : ∀ t, SameLuck (env t) (env' t) i i') (a : Opt n d K) (a' : Opt n' d K)
    (v v' : XR K × Vec d K) (h : optimize cfg ev iters nproc env s = (a, .ok v))
    (h' : optimize cfg' ev' iters nproc' env' s' = (a', .ok v')) :
    SameStart a a' i i' ∧ a.swarm.pbestCost i = a'.swarm.pbestCost i' := by
  obtain ⟨s1, hl, rfl, -, -⟩ := optimize_ok cfg ev iters nproc env s a v.1 v.2 h
  obtain ⟨s1', hl', rfl, -, -⟩ := optimize_ok cfg' ev' iters nproc' env' s' a' v'.1 v'.2 h'
  obtain ⟨ht, -⟩ := loop_full_alike hcfg hf hw hf' hw' hev hev' env env' iters iters i i' hφ hr iters
    0 [] [] _ _ _ _ (start_alike hcfg hs.1 hs.2 (fun _ => hs.3) ho ho' nproc nproc') hl hl'
  exact ⟨⟨ht.1, ht.2, ht.3 trivial⟩, ht.4 trivial⟩

/-- After first calls with the same number of iterations the two particles have been evaluated at the
same positions with the same costs. -/
theorem fresh_rowLog {cfg : Config n d K} {cfg' : Config n' d K} (hcfg : SameSolo cfg cfg')
    (hf : cfg.ftol = XR.ninf) (hw : 0 < cfg.window) (hf' : cfg'.ftol = XR.ninf)
    (hw' : 0 < cfg'.window) (f : Vec d K → XR K) (iters : Nat) (nproc nproc' : Option Nat)
    (env : Nat → Draw n d K) (env' : Nat → Draw n' d K) (s : Opt n d K) (s' : Opt n' d K)
    (hs : Fresh cfg s) (hs' : Fresh cfg' s') (i : Fin n) (i' : Fin n')
    (hp : s.swarm.position i = s'.swarm.position i')
    (hv : s.swarm.velocity i = s'.swarm.velocity i')
    (hr : ∀ t, SameLuck (env t) (env' t) i i') (a : Opt n d K) (a' : Opt n' d K)
    (v v' : XR K × Vec d K) (h : optimize cfg (costOf f) iters nproc env s = (a, .ok v))
    (h' : optimize cfg' (costOf f) iters nproc' env' s' = (a', .ok v')) :
    rowLog i a.evals = rowLog i' a'.evals := by
  have hco : ∀ m, RowCost (n := m) (costOf f) (fun _ _ => f) := by
    intro m t x c hc i
    cases hc
    rfl
  obtain ⟨b, hl, rfl, -, -⟩ := optimize_ok cfg _ iters nproc env s a v.1 v.2 h
  obtain ⟨b', hl', rfl, -, -⟩ := optimize_ok cfg' _ iters nproc' env' s' a' v'.1 v'.2 h'
  obtain ⟨r, sw, t, x, y, q, hsw, hsE⟩ := fresh_cases cfg s hs
  obtain ⟨r', sw', t', x', y', q', hsw', hsE'⟩ := fresh_cases cfg' s' hs'
  have hi := fresh_reachable_init cfg r sw hsw
  have hi' := fresh_reachable_init cfg' r' sw' hsw'
  have hpb : s.swarm.pbestPos = s.swarm.position := by rw [hsE]; exact hi.2.2.2.1
  have hpb' : s'.swarm.pbestPos = s'.swarm.position := by rw [hsE']; exact hi'.2.2.2.1
  have ho : s.swarm.options = cfg.options := by rw [hsE]; exact hi.2.2.2.2
  have ho' : s'.swarm.options = cfg'.options := by rw [hsE']; exact hi'.2.2.2.2
  obtain ⟨-, E, E', e1, e2, e3⟩ := loop_full_alike hcfg hf hw hf' hw' (hco n) (hco n') env env' iters
    iters i i' (fun _ => rfl) hr iters 0 [] [] _ _ _ _
    (start_alike hcfg hp hv (fun _ => by rw [hpb, hpb']; exact hp) ho ho' nproc nproc') hl hl'
  have z : (startState cfg nproc s).evals = [] := by rw [hsE]; rfl
  have z' : (startState cfg' nproc' s').evals = [] := by rw [hsE']; rfl
  rw [z, List.nil_append] at e1
  rw [z', List.nil_append] at e2
  show rowLog i b.evals = rowLog i' b'.evals
  rw [e1, e2, e3]

theorem xr_eq_of_not_lt {a b : XR K} (ha : a ≠ .nan) (hb : b ≠ .nan) (h1 : XR.lt a b = false)
    (h2 : XR.lt b a = false) : a = b := by
  cases a <;> cases b <;> simp_all [XR.lt]
  exact le_antisymm h2 h1

/-- C122: so, with `c2 = 0`, a new optimizer with `n` particles and the Star topology returns exactly
the best of the costs that `n` optimizers with one particle each return. -/
theorem C122_best_of (hn : 0 < n) (cfg : Config n d K) (hk : cfg.kind.isStar)
    (one : Fin n → Config 1 d K) (hk1 : ∀ i, (one i).kind.isStar)
    (hcfg : ∀ i, SameSolo cfg (one i)) (hf : cfg.ftol = XR.ninf) (hw : 0 < cfg.window)
    (hf1 : ∀ i, (one i).ftol = XR.ninf) (hw1 : ∀ i, 0 < (one i).window)
    (f : Vec d K → XR K) (hnan : ∀ x, f x ≠ .nan) (iters : Nat) (nproc : Option Nat)
    (env : Nat → Draw n d K) (env1 : Fin n → Nat → Draw 1 d K) (s : Opt n d K)
    (s1 : Fin n → Opt 1 d K) (hs : Fresh cfg s) (hs1 : ∀ i, Fresh (one i) (s1 i))
    (hp : ∀ i, s.swarm.position i = (s1 i).swarm.position 0)
    (hv : ∀ i, s.swarm.velocity i = (s1 i).swarm.velocity 0)
    (hr : ∀ i t, SameLuck (env t) (env1 i t) i 0) (a : Opt n d K) (a1 : Fin n → Opt 1 d K)
    (c : XR K) (p : Vec d K) (c1 : Fin n → XR K) (p1 : Fin n → Vec d K)
    (h : optimize cfg (costOf f) iters nproc env s = (a, .ok (c, p)))
    (h1 : ∀ i, optimize (one i) (costOf f) iters nproc (env1 i) (s1 i) = (a1 i, .ok (c1 i, p1 i))) :
    (∃ i, c = c1 i) ∧ ∀ i, XR.lt (c1 i) c = false := by
  obtain ⟨hlog, ⟨e, he, k, hek, hec⟩, hmin⟩ := C05_first_call hn cfg hk s hs _ iters nproc env a c p h
  have hrow : ∀ i, rowLog i a.evals = rowLog 0 (a1 i).evals := fun i =>
    fresh_rowLog (hcfg i) hf hw (hf1 i) (hw1 i) f iters nproc nproc env (env1 i) s (s1 i) hs (hs1 i) i 0
      (hp i) (hv i) (hr i) a (a1 i) _ _ h (h1 i)
  have hlow : ∀ i, XR.lt (c1 i) c = false := by
    intro i
    obtain ⟨-, ⟨e', he', k', -, hc'⟩, -⟩ := C05_first_call Nat.one_pos (one i) (hk1 i) (s1 i) (hs1 i) _
      iters nproc (env1 i) (a1 i) (c1 i) (p1 i) (h1 i)
    have : (e'.1 0, e'.2 0) ∈ rowLog i a.evals := by
      rw [hrow i]; exact List.mem_map_of_mem he'
    obtain ⟨e0, he0, h0⟩ := List.mem_map.1 this
    rw [← hc', Subsingleton.elim k' 0, ← (Prod.mk.inj h0).2]
    exact hmin e0 he0 i
  refine ⟨⟨k, ?_⟩, hlow⟩
  obtain ⟨hlog', ⟨e', he', k', -, hc'⟩, hmin'⟩ := C05_first_call Nat.one_pos (one k) (hk1 k) (s1 k)
    (hs1 k) _ iters nproc (env1 k) (a1 k) (c1 k) (p1 k) (h1 k)
  have hle : XR.lt c (c1 k) = false := by
    have : (e.1 k, e.2 k) ∈ rowLog 0 (a1 k).evals := by
      rw [← hrow k]; exact List.mem_map_of_mem he
    obtain ⟨e0, he0, h0⟩ := List.mem_map.1 this
    rw [← hec, ← (Prod.mk.inj h0).2]
    exact hmin' e0 he0 0
  have nn : ∀ {m : Nat} {E : List (Mat m d K × Costs m K)}, LogOf (costOf f) E → ∀ e ∈ E, ∀ i,
      e.2 i ≠ .nan := by
    intro m E hE e he i
    obtain ⟨t, ht, rfl⟩ := List.mem_iff_getElem.1 he
    rw [← Except.ok.inj (hE t ht)]
    exact hnan _
  exact xr_eq_of_not_lt (by rw [← hec]; exact nn hlog e he k)
    (by rw [← hc']; exact nn hlog' e' he' k') hle (hlow k)

/-- C122: so, with `c2 = 0`, adding particles never makes the result worse: a new optimizer with the
Star topology that has, among others, particles that start and draw like those of another one returns
a cost that is not larger. -/
theorem C122_more (hn : 0 < n) (cfg : Config n d K) (cfg' : Config n' d K) (hk : cfg.kind.isStar)
    (hk' : cfg'.kind.isStar) (hcfg : SameSolo cfg cfg') (hf : cfg.ftol = XR.ninf)
    (hw : 0 < cfg.window) (hf' : cfg'.ftol = XR.ninf) (hw' : 0 < cfg'.window)
    (f : Vec d K → XR K) (iters : Nat) (nproc nproc' : Option Nat) (env : Nat → Draw n d K)
    (env' : Nat → Draw n' d K) (s : Opt n d K) (s' : Opt n' d K) (hs : Fresh cfg s)
    (hs' : Fresh cfg' s') (among : Fin n → Fin n')
    (hp : ∀ i, s.swarm.position i = s'.swarm.position (among i))
    (hv : ∀ i, s.swarm.velocity i = s'.swarm.velocity (among i))
    (hr : ∀ i t, SameLuck (env t) (env' t) i (among i)) (a : Opt n d K) (a' : Opt n' d K)
    (c c' : XR K) (p p' : Vec d K)
    (h : optimize cfg (costOf f) iters nproc env s = (a, .ok (c, p)))
    (h' : optimize cfg' (costOf f) iters nproc' env' s' = (a', .ok (c', p'))) :
    XR.lt c c' = false := by
  obtain ⟨-, ⟨e, he, k, -, hec⟩, -⟩ := C05_first_call hn cfg hk s hs _ iters nproc env a c p h
  obtain ⟨-, -, hmin⟩ := C05_first_call (Fin.pos (among ⟨0, hn⟩)) cfg' hk' s' hs' _ iters nproc' env' a'
    c' p' h'
  have := fresh_rowLog hcfg hf hw hf' hw' f iters nproc nproc' env env' s s' hs hs' k (among k) (hp k)
    (hv k) (hr k) a a' _ _ h h'
  have hm : (e.1 k, e.2 k) ∈ rowLog (among k) a'.evals := by
    rw [← this]; exact List.mem_map_of_mem he
  obtain ⟨e0, he0, h0⟩ := List.mem_map.1 hm
  rw [← hec, ← (Prod.mk.inj h0).2]
  exact hmin e0 he0 (among k)

namespace Ex

/-- GlobalBestPSO with `c1 = w = 1/2` and the given `c2`, started from `P`. -/
def soloCfg (n : Nat) (P : Mat n 1 ℚ) (c2 : ℚ) : Config n 1 ℚ :=
  { gcfg n 1 with options := [("c1", 1 / 2), ("c2", c2), ("w", 1 / 2)], initPos := some P }

/-- The path of the first particle in two iterations minimising `x ** 2`, and the returned cost. -/
def soloRun (n : Nat) [NeZero n] (P : Mat n 1 ℚ) (c2 : ℚ) : Option (List ℚ × ℚ) :=
  match construct (soloCfg n P c2) (init n 1) (init n 1) with
  | .error _ => none
  | .ok s => match optimize (soloCfg n P c2) (costOf squareOf) 2 none (fun _ => draw n 1) s with
    | (a, .ok (.fin c, _)) => some (a.posHistory.map fun x => x 0 0, c)
    | _ => none

end Ex

/-- C122: the condition `c2 = 0` is needed.  A particle at -4 has the same path alone and beside a
particle at 1 if `c2 = 0`, and another path beside it if `c2 = 1/3`; the two particles together
return the better of the two costs. -/
theorem C122_social :
    Ex.soloRun 1 (fun _ _ => -4) 0 = some ([-4, -15 / 4], 225 / 16) ∧
    Ex.soloRun 1 (fun _ _ => 1) 0 = some ([1, 5 / 4], 1) ∧
    Ex.soloRun 2 (fun i _ => if i = 0 then -4 else 1) 0 = some ([-4, -15 / 4], 1) ∧
    Ex.soloRun 1 (fun _ _ => -4) (1 / 3) = some ([-4, -15 / 4], 225 / 16) ∧
    Ex.soloRun 2 (fun i _ => if i = 0 then -4 else 1) (1 / 3) = some ([-4, -35 / 12], 1) := by
  decide +kernel

namespace Ex

/-- The cost returned after two iterations minimising `|x + 15/4|`. -/
def nearCost (n : Nat) (P : Mat n 1 ℚ) (c2 : ℚ) : Option ℚ :=
  match construct (soloCfg n P c2) (init n 1) (init n 1) with
  | .error _ => none
  | .ok s => match (optimize (soloCfg n P c2) (costOf fun x => .fin |x 0 + 15 / 4|) 2 none
      (fun _ => draw n 1) s).2 with
    | .ok (.fin c, _) => some c
    | _ => none

end Ex

/-- C122: with `c2` not zero more particles can make the result worse.  Minimising `|x + 15/4|`, the
particle at -4 alone reaches the minimum in one step; beside a better particle at -31/8 it is drawn
past it, and neither of them finds it.  With `c2 = 0` the two find it as well. -/
theorem C122_more_can_hurt :
    Ex.nearCost 1 (fun _ _ => -4) (1 / 3) = some 0 ∧
    Ex.nearCost 2 (fun i _ => if i = 0 then -4 else -31 / 8) (1 / 3) = some (1 / 48) ∧
    Ex.nearCost 2 (fun i _ => if i = 0 then -4 else -31 / 8) 0 = some 0 := by
  decide +kernel

-- the configurations of `C122_social` meet the hypotheses of the theorems, with particle 0 or 1 of the
-- pair and the only particle of the other optimizer
example (i : Fin 2) : SameSolo (Ex.soloCfg 2 (fun i _ => if i = 0 then -4 else 1) 0)
      (Ex.soloCfg 1 (fun _ _ => if i = 0 then -4 else 1) 0) ∧
    (Ex.soloCfg 2 (fun i _ => if i = 0 then -4 else 1) 0).kind.isStar ∧
    SameLuck (Ex.draw 2 1) (Ex.draw 1 1) i 0 ∧
    0 < (Ex.soloCfg 2 (fun i _ => if i = 0 then -4 else 1) 0).window ∧
    ∃ s s', construct (Ex.soloCfg 2 (fun i _ => if i = 0 then -4 else 1) 0) (Ex.init 2 1)
        (Ex.init 2 1) = .ok s ∧
      construct (Ex.soloCfg 1 (fun _ _ => if i = 0 then -4 else 1) 0) (Ex.init 1 1) (Ex.init 1 1) =
        .ok s' ∧ SameStart s s' i 0 ∧
      s.swarm.options = (Ex.soloCfg 2 (fun i _ => if i = 0 then -4 else 1) 0).options ∧
      RowCost (n := 2) (costOf Ex.squareOf) fun _ _ => Ex.squareOf :=
  ⟨⟨⟨fun h => (by cases h), fun h => (by cases h)⟩, rfl, rfl, rfl, rfl, rfl, rfl, rfl, rfl⟩, trivial,
    ⟨rfl, rfl, rfl⟩, Nat.one_pos, _, _, rfl, rfl, ⟨rfl, rfl, rfl⟩, rfl,
    fun _ _ _ h _ => by cases h; rfl⟩

end PySwarms
