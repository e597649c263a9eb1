import Verif.Lemmas.Ieee
import Verif.Model.Rounded

/-!
# Where nothing overflows, the model with special values is the rounded one

The model with infinities and `nan` (Model/Ieee.lean) is a third reading of the same lines of the
source.  As long as rounding gives numbers, it does step by step what the rounded model
(Model/Rounded.lean) does, and with the rounding that changes nothing, what the exact model does.
-/

set_option linter.unusedSectionVars false

namespace PySwarms

variable {n d : Nat} {K : Type} [Field K] [LinearOrder K] [IsStrictOrderedRing K]

/-! ## Specification -/

/-- A matrix of numbers as a matrix of float values. -/
def up (x : Mat n d K) : Mat n d (XR K) := fun i j => .fin (x i j)

/-- The best position as a float vector; a GlobalBestPSO has none or one. -/
def BestSeen : BestPos n d K → Option (Vec d (XR K)) → Prop
  | .empty, g => g = none
  | .single v, g => g = some fun j => .fin (v j)
  | .perParticle _, _ => False

/-- The same state in both models. -/
structure SameState (s : Opt n d K) (t : OptX n d K) : Prop where
  position : t.swarm.position = up s.swarm.position
  velocity : t.swarm.velocity = up s.swarm.velocity
  pbestPos : t.swarm.pbestPos = up s.swarm.pbestPos
  pbestCost : t.swarm.pbestCost = s.swarm.pbestCost
  bestPos : BestSeen s.swarm.bestPos t.swarm.bestPos
  bestCost : t.swarm.bestCost = s.swarm.bestCost
  bhMem : t.bhMem = s.bhMem.map up
  vhMem : t.vhMem = s.vhMem.map up
  costHistory : t.costHistory = s.costHistory
  evals : t.evals = s.evals.map fun e => (up e.1, e.2)

/-- The same call of `optimize` in both models: the same objective on matrices of numbers, the same
draws, and options handler answers that do not look at the swarm. -/
structure SameCall (B : Arith n d K) (ev : Nat → Mat n d K → Except Err (Costs n K))
    (env : Nat → Draw n d K) (iters : Nat) (c : CallX n d K) : Prop where
  sameEv : ∀ i x, c.ev i (up x) = ev i x
  sameEnv : c.env = env
  sameOh : ∀ i s, B.oh iters i (env i) s = c.oh i

/-- The same run: the rounded model has left the numbers, or states and outcomes agree. -/
def SameRun {α : Type} (r : Opt n d K × Except Err α) (x : OptX n d K × Except Err α) : Prop :=
  r.2 = .error .nonFinite ∨ SameState r.1 x.1 ∧ x.2 = r.2

/-! ## Arithmetic -/

section arith
variable {A : Fpu K} {fl : K → K} (hA : ∀ x, A.rnd x = .fin (fl x))
include hA

theorem rndAdd (x y : K) : A.add (.fin x) (.fin y) = .fin (fl (x + y)) := by
  rw [Fpu.add_fin, hA]

theorem rndSub (x y : K) : A.sub (.fin x) (.fin y) = .fin (fl (x - y)) := by
  rw [Fpu.sub_fin, hA]

theorem rndMul (x y : K) : A.mul (.fin x) (.fin y) = .fin (fl (x * y)) := by
  rw [Fpu.mul_fin, hA]

theorem rndDiv (x : K) {y : K} (hy : y ≠ 0) : A.div (.fin x) (.fin y) = .fin (fl (x / y)) := by
  unfold Fpu.div XR.div
  simp only [if_neg hy, Fpu.round, hA]

theorem rndMod [FloorRing K] (x : K) {y : K} (hy : y ≠ 0) :
    A.mod (.fin x) (.fin y) = .fin (fl (npMod x y)) := by
  unfold Fpu.mod XR.mod
  simp only [if_neg hy, Fpu.round, hA]

theorem round_eq (x : XR K) : A.round x = roundX fl x := by
  cases x <;> simp [Fpu.round, roundX, hA]

end arith

theorem absFin (x : K) : XR.abs (.fin x) = .fin |x| := by
  show (if x < 0 then XR.fin (-x) else XR.fin x) = _
  split
  · next h => rw [abs_of_neg h]
  · next h => rw [abs_of_nonneg (not_lt.1 h)]

theorem isLowX_up (b : Bounds d K) (x : Mat n d K) (i : Fin n) (j : Fin d) :
    isLowX b (up x) i j = isLow b x i j := rfl

theorem isHighX_up (b : Bounds d K) (x : Mat n d K) (i : Fin n) (j : Fin d) :
    isHighX b (up x) i j = isHigh b x i j := rfl

theorem rowLowX_up (b : Bounds d K) (x : Mat n d K) (i : Fin n) :
    rowLowX b (up x) i = rowLow b x i := rfl

theorem rowHighX_up (b : Bounds d K) (x : Mat n d K) (i : Fin n) :
    rowHighX b (up x) i = rowHigh b x i := rfl

theorem anyOutX_up (b : Bounds d K) (x : Mat n d K) : anyOutX b (up x) = anyOut b x := rfl

theorem npMin_up (v : Vec d K) : npMin (fun j => XR.fin (v j)) = (rowMin v).map XR.fin := by
  have key : ∀ (l : List (Fin d)) (acc : Option (Fin d)),
      (l.map v).foldl (fun acc a => match acc with
        | none => some a
        | some m => some (min m a)) (acc.map v) =
      (l.foldl (argStep fun j => XR.fin (v j)) acc).map v := by
    intro l
    induction l with
    | nil => intro acc; rfl
    | cons a l ih =>
      intro acc
      rw [List.map_cons, List.foldl_cons, List.foldl_cons, ← ih]
      congr 1
      cases acc with
      | none => rfl
      | some m =>
        simp only [Option.map_some, argStep, npBetter, XR.isNan, XR.lt]
        by_cases h : v a < v m
        · simp [h, min_eq_right h.le]
        · simp [h, min_eq_left (not_lt.1 h)]
  have h : rowMin v = (npArgmin fun j => XR.fin (v j)).map v := key (List.finRange d) none
  unfold npMin
  rw [h, Option.map_map]
  rfl

/-! ## Handlers -/

/-- The answer of a handler in both models: the rounded one has left the numbers, or the answers are
the same. -/
def SameAnswer (r : Option (Mat n d K) × Except Err (Mat n d K))
    (x : Option (Mat n d (XR K)) × Except Err (Mat n d (XR K))) : Prop :=
  r.2 = .error .nonFinite ∨ x = (r.1.map up, r.2.map up)

section handlers
variable {A : Fpu K} {fl : K → K} (hA : ∀ x, A.rnd x = .fin (fl x))
include hA

theorem bhReflectiveX_up (b : Bounds d K) (m : Nat) (x : Mat n d K) :
    bhReflectiveX A b m (up x) = (bhReflectiveR fl b m x).map up := by
  induction m generalizing x with
  | zero =>
    unfold bhReflectiveX bhReflectiveR
    rw [anyOutX_up]
    split <;> rfl
  | succ m ih =>
    unfold bhReflectiveX bhReflectiveR
    rw [anyOutX_up]
    split
    · rw [← ih]
      congr 1
      funext i j
      unfold reflectPassX reflectPassR
      simp only [isLowX_up, isHighX_up]
      simp only [up, rndMul hA]
      split_ifs <;> simp only [rndSub hA]
    · rfl

theorem bhShrinkX_up (b : Bounds d K) (mem : Option (Mat n d K)) (x : Mat n d K) :
    SameAnswer (bhShrinkR fl b mem x) (bhShrinkX A b (mem.map up) (up x)) := by
  unfold bhShrinkR bhShrinkX
  cases mem with
  | none => exact .inr rfl
  | some m =>
    simp only [Option.map_some]
    split
    · exact .inl rfl
    · next hfin =>
      have hne : ∀ i j, (isLow b x i j || isHigh b x i j) = true → fl (x i j - m i j) ≠ 0 := by
        intro i j hij h0
        apply hfin
        rw [List.any_eq_true]
        refine ⟨i, List.mem_finRange i, ?_⟩
        rw [List.any_eq_true]
        exact ⟨j, List.mem_finRange j, by rw [hij, h0]; simp⟩
      right
      split
      · rfl
      · have hsig : ∀ i, shrinkSigmaX A b (up m) (up x) i =
            fun j => XR.fin (shrinkSigmaR fl b m x i j) := by
          intro i
          funext j
          unfold shrinkSigmaX shrinkSigmaR
          simp only [isLowX_up, isHighX_up]
          simp only [up, rndSub hA]
          split_ifs with h1 h2
          · rw [rndDiv hA _ (hne i j (by simp [h1]))]
          · rw [rndDiv hA _ (hne i j (by simp [h2]))]
          · rfl
        have hr : (fun i j => if (rowLowX b (up x) i || rowHighX b (up x) i) = true then
              match npMin (shrinkSigmaX A b (up m) (up x) i) with
              | some s => A.add (up m i j) (A.mul s (A.sub (up x i j) (up m i j)))
              | none => up x i j
            else up x i j) = up fun i j => if (rowLow b x i || rowHigh b x i) = true then
              match rowMin (shrinkSigmaR fl b m x i) with
              | some s => fl (m i j + fl (s * fl (x i j - m i j)))
              | none => x i j
            else x i j := by
          funext i j
          rw [rowLowX_up, rowHighX_up, hsig i, npMin_up]
          simp only [up]
          split
          · cases rowMin (shrinkSigmaR fl b m x i) with
            | none => rfl
            | some s => simp only [Option.map_some, rndSub hA, rndMul hA, rndAdd hA]
          · rfl
        exact congrArg (fun r => ((some r, .ok r) :
          Option (Mat n d (XR K)) × Except Err (Mat n d (XR K)))) hr

theorem bhPeriodicX_up [FloorRing K] (b : Bounds d K) (x : Mat n d K) :
    bhPeriodicR fl b x = .error .nonFinite ∨
      (Except.ok (bhPeriodicX A b (up x)) : Except Err _) = (bhPeriodicR fl b x).map up := by
  unfold bhPeriodicR
  split
  · exact .inl rfl
  · next hfin =>
    have hne : ∀ i j, (isLow b x i j || isHigh b x i j) = true → |fl (b.2 j - b.1 j)| ≠ 0 := by
      intro i j hij h0
      apply hfin
      rw [List.any_eq_true]
      refine ⟨i, List.mem_finRange i, ?_⟩
      rw [List.any_eq_true]
      exact ⟨j, List.mem_finRange j, by rw [hij, h0]; simp⟩
    right
    show _ = Except.ok _
    congr 1
    funext i j
    unfold bhPeriodicX
    simp only [isLowX_up, isHighX_up]
    simp only [up, rndSub hA, absFin]
    split_ifs with h1 h2
    · have h := hne i j (by simp [h1])
      simp only [rndSub hA, rndMod hA _ h, rndAdd hA]
    · have h := hne i j (by simp [h1])
      simp only [rndSub hA, rndMod hA _ h, rndAdd hA]
    · have h := hne i j (by simp_all)
      simp only [rndSub hA, rndMod hA _ h]
    · rfl

theorem bhCallX_up [FloorRing K] (st : String) (mem : Option (Mat n d K)) (b : Bounds d K)
    (r : BHDraw d K) (x : Mat n d K) :
    SameAnswer (bhCallR fl st mem b r x) (bhCallX A st (mem.map up) b r (up x)) := by
  unfold bhCallR bhCallX
  split_ifs
  · right
    show _ = (_, Except.ok _)
    congr 2
    funext i j
    unfold bhNearestX bhNearest
    simp only [isLowX_up, isHighX_up]
    simp only [up]
    by_cases h1 : isHigh b x i j = true <;> by_cases h2 : isLow b x i j = true <;> simp [h1, h2]
  · right
    rw [bhReflectiveX_up hA]
  · exact bhShrinkX_up hA b mem x
  · right
    show _ = (_, Except.ok _)
    congr 2
    funext i j
    unfold bhRandomX bhRandomR redrawX
    simp only [rowLowX_up, rowHighX_up]
    simp only [up, rndSub hA, rndMul hA, rndAdd hA]
    split_ifs <;> rfl
  · unfold bhIntermediateR bhIntermediateX
    cases mem with
    | none => exact .inr rfl
    | some m =>
      right
      have h : (fun i j =>
          if isHighX b (up x) i j = true then A.mul (.fin (1 / 2)) (A.add (up m i j) (.fin (b.2 j)))
          else if isLowX b (up x) i j = true then
            A.mul (.fin (1 / 2)) (A.add (up m i j) (.fin (b.1 j))) else up x i j) =
          up fun i j => if isHigh b x i j = true then fl (1 / 2 * fl (m i j + b.2 j))
            else if isLow b x i j = true then fl (1 / 2 * fl (m i j + b.1 j)) else x i j := by
        funext i j
        simp only [isLowX_up, isHighX_up]
        simp only [up, rndMul hA, rndAdd hA]
        split_ifs <;> rfl
      simp only [Option.map_some]
      rw [h]
      rfl
  · rcases bhPeriodicX_up hA b x with h | h
    · exact .inl h
    · right
      rw [h]
  · exact .inr rfl

omit hA in
theorem clampOptX_up (c : Option (Clamp d K)) (v : Mat n d K) :
    clampOptX c (up v) = up (clampOpt c v) := by
  cases c with
  | none => rfl
  | some c =>
    funext i j
    simp only [clampOptX, clampOpt, applyClampX, applyClamp, up, XR.le, XR.isNan, XR.lt]
    by_cases h1 : v i j ≤ c.1 j <;> by_cases h2 : c.2 j ≤ v i j <;> simp [h1, h2]

theorem vhCallX_up (st : String) (mem : Option (Mat n d K)) (c : Option (Clamp d K))
    (bounds : Option (Bounds d K)) (p v : Mat n d K) :
    vhCallX A st (mem.map up) c bounds (up p) (up v) =
      ((vhCallR fl st mem c { position := some p, bounds := some bounds } v).1.map up,
       (vhCallR fl st mem c { position := some p, bounds := some bounds } v).2.map up) := by
  unfold vhCallX vhCallR
  split_ifs
  · simp only [vhUnmodified, clampOptX_up]
    rfl
  · unfold vhAdjustX vhAdjustR
    cases mem with
    | none => rfl
    | some m =>
      simp only [Option.map_some]
      have h : (fun i j => A.sub (up p i j) (up m i j)) = up fun i j => fl (p i j - m i j) := by
        funext i j
        simp only [up, rndSub hA]
      rw [h, clampOptX_up]
      rfl
  · unfold vhInvertX vhInvertR
    cases bounds with
    | none => rfl
    | some b =>
      have h : (fun i j => if rowHighX b (up p) i = true then A.mul (.fin (-(1 / 2)))
            (if rowLowX b (up p) i = true then A.mul (.fin (-(1 / 2))) (up v i j) else up v i j)
            else if rowLowX b (up p) i = true then A.mul (.fin (-(1 / 2))) (up v i j)
            else up v i j) =
          up fun i j => if rowHigh b p i = true then fl (-(1 / 2) *
            (if rowLow b p i = true then fl (-(1 / 2) * v i j) else v i j))
            else if rowLow b p i = true then fl (-(1 / 2) * v i j) else v i j := by
        funext i j
        simp only [rowLowX_up, rowHighX_up]
        simp only [up]
        by_cases h1 : rowHigh b p i = true <;> by_cases h2 : rowLow b p i = true <;>
          simp [h1, h2, rndMul hA]
      dsimp only [Option.getD_none]
      rw [h, clampOptX_up]
      rfl
  · unfold vhZeroX vhZero
    cases bounds with
    | none => rfl
    | some b =>
      have h : (fun i j => if rowHighX b (up p) i = true then XR.fin 0
            else if rowLowX b (up p) i = true then XR.fin 0 else up v i j) =
          up fun i j => if rowHigh b p i = true then 0
            else if rowLow b p i = true then 0 else v i j := by
        funext i j
        simp only [rowLowX_up, rowHighX_up]
        simp only [up]
        by_cases h1 : rowHigh b p i = true <;> by_cases h2 : rowLow b p i = true <;> simp [h1, h2]
      exact congrArg (fun r => ((mem.map up, .ok r) :
        Option (Mat n d (XR K)) × Except Err (Mat n d (XR K)))) h
  · rfl

end handlers

/-! ## Operators and iterations -/

theorem BestSeen.row {g : BestPos n d K} {g' : Option (Vec d (XR K))} (h : BestSeen g g')
    (x : Mat n d K) (i : Fin n) (j : Fin d) :
    (match g' with
      | some v => v j
      | none => up x i j) = .fin (g.row x i j) := by
  cases g with
  | empty => cases h; rfl
  | single v => cases h; rfl
  | perParticle m => exact h.elim

section steps
variable [FloorRing K] {A : Fpu K} {fl : K → K} (hA : ∀ x, A.rnd x = .fin (fl x))
include hA

theorem computeVelocityX_up {s : Opt n d K} {t : OptX n d K} (h : SameState s t) (o : Opts K)
    (clamp : Option (Clamp d K)) (st : String) (bounds : Option (Bounds d K)) (r1 r2 : Mat n d K) :
    computeVelocityX A o t.swarm clamp st t.vhMem bounds r1 r2 =
      ((computeVelocityR fl { s.swarm with options := o } clamp st s.vhMem bounds r1 r2).1.map up,
       (computeVelocityR fl { s.swarm with options := o } clamp st s.vhMem bounds r1 r2).2.map up) := by
  have htemp : ∀ c1 c2 w, tempVelocityX A c1 c2 w r1 r2 t.swarm =
      up (tempVelocityR fl c1 c2 w r1 r2 { s.swarm with options := o }) := by
    intro c1 c2 w
    funext i j
    have h1 : t.swarm.target i j = .fin (s.swarm.bestPos.row s.swarm.position i j) := by
      rw [← h.bestPos.row s.swarm.position i j]
      unfold SwarmX.target
      rw [h.position]
      rfl
    unfold tempVelocityX tempVelocityR
    rw [h1, h.position, h.velocity, h.pbestPos]
    simp only [up, rndSub hA, rndMul hA, rndAdd hA]
  unfold computeVelocityX computeVelocityR
  dsimp only
  cases o.lookup "c1" with
  | none => simp only [h.vhMem]; rfl
  | some c1 =>
    cases o.lookup "c2" with
    | none => simp only [h.vhMem]; rfl
    | some c2 =>
      cases o.lookup "w" with
      | none => simp only [h.vhMem]; rfl
      | some w =>
        simp only [htemp, h.position, h.vhMem]
        have hc := vhCallX_up hA st s.vhMem clamp bounds s.swarm.position
          (tempVelocityR fl c1 c2 w r1 r2 { s.swarm with options := o })
        dsimp only at hc
        have hb := h.bestPos
        cases hg : s.swarm.bestPos with
        | empty =>
          rw [hg] at hb hc
          have hb' : t.swarm.bestPos = none := hb
          rw [hb']
          dsimp only
          rw [hc]
          split_ifs
          · rfl
          · rfl
          · generalize vhCallR fl st s.vhMem clamp _ _ = y
            obtain ⟨m, y⟩ := y
            cases y <;> rfl
          · rfl
        | single v =>
          rw [hg] at hb hc
          have hb' : t.swarm.bestPos = some fun j => .fin (v j) := hb
          rw [hb']
          exact hc
        | perParticle m => rw [hg] at hb; exact hb.elim

theorem moveSwarmX_up {B : Arith n d K} (hB : B.fl = fl) {cfg : Config n d K}
    (hk : cfg.kind = .globalBest) {s : Opt n d K} {t : OptX n d K} (h : SameState s t)
    (r : Draw n d K) (iters i : Nat) :
    SameRun (moveSwarmR B cfg r iters i s) (moveSwarmX A cfg r (B.oh iters i r s.swarm) t) := by
  unfold moveSwarmR moveSwarmX
  cases ho : B.oh iters i r s.swarm with
  | error e => exact .inr ⟨h, rfl⟩
  | ok o =>
    have hv := computeVelocityX_up hA h o cfg.clamp cfg.vhStrategy cfg.bounds r.r1 r.r2
    have hvb : velBounds cfg = cfg.bounds := by unfold velBounds; rw [hk]
    dsimp only at hv ⊢
    rw [hvb, hB, hv]
    generalize computeVelocityR fl _ cfg.clamp cfg.vhStrategy s.vhMem cfg.bounds r.r1 r.r2 = y
    obtain ⟨vm, y⟩ := y
    cases y with
    | error e =>
      exact .inr ⟨⟨h.position, h.velocity, h.pbestPos, h.pbestCost, h.bestPos, h.bestCost, h.bhMem,
        rfl, h.costHistory, h.evals⟩, rfl⟩
    | ok v =>
      dsimp only [Except.map]
      have hp : ∀ sw : Swarm n d K, callPositionR B cfg r s.bhMem sw =
          computePositionR fl sw cfg.bounds cfg.bhStrategy s.bhMem r.bh := by
        intro sw
        unfold callPositionR
        rw [hk, hB]
      rw [hp]
      unfold computePositionR computePositionX
      have ht : (fun i j => A.add (t.swarm.position i j) (up v i j)) =
          up fun i j => fl (s.swarm.position i j + v i j) := by
        funext i j
        rw [h.position]
        exact rndAdd hA _ _
      dsimp only
      rw [ht, h.bhMem]
      cases cfg.bounds with
      | none =>
        exact .inr ⟨⟨rfl, rfl, h.pbestPos, h.pbestCost, h.bestPos, h.bestCost, rfl,
          rfl, h.costHistory, h.evals⟩, rfl⟩
      | some b =>
        dsimp only
        rcases bhCallX_up hA cfg.bhStrategy s.bhMem b r.bh
          (fun i j => fl (s.swarm.position i j + v i j)) with h1 | h1
        · left
          revert h1
          generalize bhCallR fl cfg.bhStrategy s.bhMem b r.bh _ = z
          obtain ⟨bm, z⟩ := z
          intro h1
          dsimp only at h1
          subst h1
          rfl
        · rw [h1]
          generalize bhCallR fl cfg.bhStrategy s.bhMem b r.bh _ = z
          obtain ⟨bm, z⟩ := z
          cases z with
          | error e =>
            exact .inr ⟨⟨h.position, rfl, h.pbestPos, h.pbestCost, h.bestPos, h.bestCost, rfl,
              rfl, h.costHistory, h.evals⟩, rfl⟩
          | ok p =>
            exact .inr ⟨⟨rfl, rfl, h.pbestPos, h.pbestCost, h.bestPos, h.bestCost, rfl,
              rfl, h.costHistory, h.evals⟩, rfl⟩

omit hA in
theorem recordEvalX_up {s : Opt n d K} {t : OptX n d K} (h : SameState s t) (c : Costs n K) :
    SameState (recordEval c s) (recordEvalX c t) where
  position := h.position
  velocity := h.velocity
  pbestPos := by
    funext i j
    show (if XR.lt (c i) (t.swarm.pbestCost i) = true then t.swarm.position i j
      else t.swarm.pbestPos i j) =
      .fin (if (!XR.lt (c i) (s.swarm.pbestCost i)) = true then s.swarm.pbestPos i j
        else s.swarm.position i j)
    rw [h.pbestCost, h.position, h.pbestPos]
    by_cases hc : XR.lt (c i) (s.swarm.pbestCost i) = true <;> simp [hc, up]
  pbestCost := by
    funext i
    show (if XR.lt (c i) (t.swarm.pbestCost i) = true then c i else t.swarm.pbestCost i) =
      (if (!XR.lt (c i) (s.swarm.pbestCost i)) = true then s.swarm.pbestCost i else c i)
    rw [h.pbestCost]
    by_cases hc : XR.lt (c i) (s.swarm.pbestCost i) = true <;> simp [hc]
  bestPos := h.bestPos
  bestCost := h.bestCost
  bhMem := h.bhMem
  vhMem := h.vhMem
  costHistory := h.costHistory
  evals := by
    show t.evals ++ [(t.swarm.position, c)] = (s.evals ++ [(s.swarm.position, c)]).map _
    rw [h.evals, h.position, List.map_append]
    rfl

omit hA in
theorem bestCostVal_up {s : Opt n d K} {t : OptX n d K} (h : SameState s t) :
    t.swarm.bestCostVal = s.swarm.bestCostVal := by
  unfold SwarmX.bestCostVal Swarm.bestCostVal
  rw [h.bestCost]

omit hA in
theorem recordBestX_up (B : Arith n d K) {s : Opt n d K} {t : OptX n d K} (h : SameState s t)
    (tp : TopState n) {g : GBest n d K} {g' : Option (Vec d (XR K)) × Option (XR K)}
    (h1 : BestSeen g.1 g'.1) (h2 : g'.2 = g.2) :
    SameState (recordBestR B tp g s) (recordBestX g' t) where
  position := h.position
  velocity := h.velocity
  pbestPos := h.pbestPos
  pbestCost := h.pbestCost
  bestPos := h1
  bestCost := h2
  bhMem := h.bhMem
  vhMem := h.vhMem
  costHistory := by
    show t.costHistory ++ [g'.2.getD XR.pinf] = s.costHistory ++ [_]
    rw [h.costHistory, h2]
    rfl
  evals := h.evals

theorem iterateX_up {B : Arith n d K} (hB : B.fl = fl) {cfg : Config n d K}
    (hk : cfg.kind = .globalBest) {s : Opt n d K} {t : OptX n d K} (h : SameState s t)
    {ev : Mat n d K → Except Err (Costs n K)} {evX : Mat n d (XR K) → Except Err (Costs n K)}
    (hev : ∀ x, evX (up x) = ev x) (r : Draw n d K) (iters i : Nat) (q : List Bool)
    {o : Except Err (Opts K)} (ho : ∀ sw, B.oh iters i r sw = o) :
    SameRun (iterateR B cfg ev r iters i q s) (iterateX A cfg evX r o i q t) := by
  unfold iterateR iterateX
  rw [h.position, hev]
  cases ev s.swarm.position with
  | error e => exact .inr ⟨h, rfl⟩
  | ok c =>
    have h1 := recordEvalX_up h c
    have hg : ∀ (tp : TopState n) (sw : Swarm n d K),
        callGbest cfg r.oracle tp sw = starGbest tp sw := by
      intro tp sw
      unfold callGbest
      rw [hk]
      rfl
    dsimp only
    rw [hg]
    generalize recordEval c s = s1 at h1 ⊢
    generalize recordEvalX c t = t1 at h1 ⊢
    have hstar : (∃ tp, starGbest s1.top s1.swarm = (tp, .error .valueError) ∧
          starX t1.swarm = none) ∨
        ∃ tp g g', starGbest s1.top s1.swarm = (tp, .ok g) ∧ starX t1.swarm = some g' ∧
          BestSeen g.1 g'.1 ∧ g'.2 = g.2 := by
      unfold starGbest starX
      rw [h1.pbestCost, bestCostVal_up h1, h1.pbestPos]
      cases npArgmin s1.swarm.pbestCost with
      | none => exact .inl ⟨_, rfl, rfl⟩
      | some k =>
        dsimp only
        split
        · exact .inr ⟨_, _, _, rfl, rfl, rfl, rfl⟩
        · exact .inr ⟨_, _, _, rfl, rfl, h1.bestPos, h1.bestCost⟩
    rcases hstar with ⟨tp, e1, e2⟩ | ⟨tp, g, g', e1, e2, e3, e4⟩
    · rw [e1, e2]
      exact .inr ⟨⟨h1.position, h1.velocity, h1.pbestPos, h1.pbestCost, h1.bestPos, h1.bestCost,
        h1.bhMem, h1.vhMem, h1.costHistory, h1.evals⟩, rfl⟩
    · rw [e1, e2]
      have h2 := recordBestX_up B h1 tp e3 e4
      dsimp only
      have hd : ftolDeltaX A cfg.ftol (recordBestX g' t1).swarm.bestCostVal t1.swarm.bestCostVal =
          ftolDeltaR B.fl cfg.ftol (recordBestR B tp g s1).swarm.bestCostVal
            s1.swarm.bestCostVal := by
        rw [bestCostVal_up h2, bestCostVal_up h1, hB]
        unfold ftolDeltaX ftolDeltaR Fpu.sub Fpu.mul Fpu.add
        simp only [round_eq hA]
      rw [hd]
      split
      · exact .inr ⟨h2, rfl⟩
      · have h3 := moveSwarmX_up hA hB hk h2 r iters i
        rw [ho] at h3
        revert h3
        generalize moveSwarmR B cfg r iters i (recordBestR B tp g s1) = y
        generalize moveSwarmX A cfg r o (recordBestX g' t1) = z
        obtain ⟨y1, y2⟩ := y
        obtain ⟨z1, z2⟩ := z
        rintro (h3 | ⟨h3, h4⟩)
        · left
          dsimp only at h3
          subst h3
          rfl
        · dsimp only at h3 h4
          subst h4
          right
          cases z2 with
          | error e => exact ⟨h3, rfl⟩
          | ok u => exact ⟨h3, rfl⟩

theorem loopX_up {B : Arith n d K} (hB : B.fl = fl) {cfg : Config n d K}
    (hk : cfg.kind = .globalBest) {ev : Nat → Mat n d K → Except Err (Costs n K)}
    {env : Nat → Draw n d K} {iters : Nat} {c : CallX n d K}
    (hc : SameCall B ev env iters c) (m i : Nat) (q : List Bool) {s : Opt n d K} {t : OptX n d K}
    (h : SameState s t) :
    SameRun (loopR B cfg ev env iters m i q s) (loopX A cfg c m i q t) := by
  induction m generalizing i q s t with
  | zero => exact .inr ⟨h, rfl⟩
  | succ m ih =>
    unfold loopR loopX
    have h1 := iterateX_up hA hB hk h (hc.sameEv i) (env i) iters i q (hc.sameOh i)
    rw [hc.sameEnv]
    revert h1
    generalize iterateR B cfg (ev i) (env i) iters i q s = y
    generalize iterateX A cfg (c.ev i) (env i) (c.oh i) i q t = z
    obtain ⟨y1, y2⟩ := y
    obtain ⟨z1, z2⟩ := z
    rintro (h1 | ⟨h1, h2⟩)
    · left
      dsimp only at h1
      subst h1
      rfl
    · dsimp only at h1 h2
      subst h2
      rcases z2 with e | _ | q'
      · exact .inr ⟨h1, rfl⟩
      · exact .inr ⟨h1, rfl⟩
      · exact ih (i + 1) q' h1

end steps

end PySwarms
