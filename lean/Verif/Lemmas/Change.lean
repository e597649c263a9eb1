import Verif.Lemmas.Sim
import Mathlib.Logic.Equiv.Defs
import Mathlib.Tactic.FieldSimp
import Mathlib.Tactic.SplitIfs

/-! Running the same optimizer in other coordinates and with another cost scale. -/

set_option linter.unusedSectionVars false

namespace PySwarms

variable {n d : Nat} {K : Type}

/-- A change of coordinates: coordinate `j` of the new point is `scale j * x (perm j) + shift j`. -/
structure Change (d : Nat) (K : Type) where
  scale : Vec d K
  shift : Vec d K
  perm : Equiv.Perm (Fin d)

namespace Change

section
variable [Field K]

/-- New coordinates of a point. -/
def pt (φ : Change d K) (x : Vec d K) : Vec d K := fun j => φ.scale j * x (φ.perm j) + φ.shift j

/-- New coordinates of a displacement. -/
def vec (φ : Change d K) (v : Vec d K) : Vec d K := fun j => φ.scale j * v (φ.perm j)

/-- New coordinates of a position matrix. -/
def mat (φ : Change d K) (x : Mat n d K) : Mat n d K := fun i => φ.pt (x i)

/-- New coordinates of a velocity matrix. -/
def vmat (φ : Change d K) (v : Mat n d K) : Mat n d K := fun i => φ.vec (v i)

/-- Renaming of the dimensions only. -/
def ren {α : Type} (φ : Change d K) (u : Fin d → α) : Fin d → α := fun j => u (φ.perm j)

def bounds (φ : Change d K) (b : Bounds d K) : Bounds d K := (φ.pt b.1, φ.pt b.2)

def clamp (φ : Change d K) (c : Clamp d K) : Clamp d K := (φ.vec c.1, φ.vec c.2)

end

end Change

/-- New coordinates of the best position. -/
def BestPos.map (f : Vec d K → Vec d K) : BestPos n d K → BestPos n d K
  | .empty => .empty
  | .single v => .single (f v)
  | .perParticle m => .perParticle fun i => f (m i)

/-- A transformation of the costs that respects comparisons, `nan` and `+inf`. -/
structure CostMap [LT K] [DecidableLT K] (g : XR K → XR K) : Prop where
  lt : ∀ a b, XR.lt (g a) (g b) = XR.lt a b
  isNan : ∀ a, (g a).isNan = a.isNan
  pinf : g XR.pinf = XR.pinf

theorem CostMap.id [LT K] [DecidableLT K] : CostMap (K := K) (fun a => a) :=
  ⟨fun _ _ => rfl, fun _ => rfl, rfl⟩

section
variable [LT K] [DecidableLT K] {g : XR K → XR K}

theorem argminOver_map (hg : CostMap g) {ι : Type} (c : ι → XR K) (l : List ι) :
    argminOver (fun i => g (c i)) l = argminOver c l := by
  unfold argminOver
  have hb : ∀ x y, npBetter (g x) (g y) = npBetter x y := by
    intro x y
    unfold npBetter
    rw [hg.isNan, hg.isNan, hg.lt]
  simp only [hb]

theorem npArgmin_map (hg : CostMap g) (c : Costs n K) :
    npArgmin (fun i => g (c i)) = npArgmin c := argminOver_map hg c _

theorem npMin_map (hg : CostMap g) (c : Costs n K) :
    npMin (fun i => g (c i)) = (npMin c).map g := by
  unfold npMin
  rw [npArgmin_map hg, Option.map_map]
  rfl

/-- The second swarm is the first one seen through `f` on positions and `g` on costs. -/
structure SwarmSeen (f : Vec d K → Vec d K) (fv : Vec d K → Vec d K) (g : XR K → XR K)
    (s s' : Swarm n d K) : Prop where
  position : s'.position = fun i => f (s.position i)
  velocity : s'.velocity = fun i => fv (s.velocity i)
  options : s'.options = s.options
  pbestPos : s'.pbestPos = fun i => f (s.pbestPos i)
  pbestCost : s'.pbestCost = fun i => g (s.pbestCost i)
  bestPos : s'.bestPos = s.bestPos.map f
  bestCost : s'.bestCost = s.bestCost.map g
  currentCost : s'.currentCost = fun i => g (s.currentCost i)

/-- The oracles answer alike for the two ways of writing a swarm. -/
structure OracleSeen (f : Vec d K → Vec d K) (o o' : Oracle n d K) : Prop where
  knn : ∀ k p x, o'.knn k p (fun i => f (x i)) = o.knn k p x
  delaunay : ∀ x, o'.delaunay (fun i => f (x i)) = o.delaunay x
  choice : ∀ k, o'.choice k = o.choice k

def seenBest (f : Vec d K → Vec d K) (g : XR K → XR K) (r : GBest n d K) : GBest n d K :=
  (r.1.map f, r.2.map g)

variable {f fv : Vec d K → Vec d K} {s s' : Swarm n d K} {o o' : Oracle n d K}

theorem SwarmSeen.bestCostVal (hg : CostMap g) (h : SwarmSeen f fv g s s') :
    s'.bestCostVal = g s.bestCostVal := by
  unfold Swarm.bestCostVal
  rw [h.bestCost]
  cases s.bestCost with
  | none => exact hg.pinf.symm
  | some c => rfl

theorem gatherBest_seen (hg : CostMap g) (h : SwarmSeen f fv g s s') (bn : Fin n → Fin n) :
    gatherBest bn s' = (gatherBest bn s).map (seenBest f g) := by
  unfold gatherBest
  rw [h.pbestCost, h.pbestPos, npMin_map hg (fun i => s.pbestCost (bn i))]
  cases npMin (fun i => s.pbestCost (bn i)) <;> rfl

theorem nbrBest_seen (hg : CostMap g) (h : SwarmSeen f fv g s s') (nbr : Fin n → List (Fin n)) :
    nbrBest nbr s' = (nbrBest nbr s).map (seenBest f g) := by
  unfold nbrBest
  have : ∀ i, bestNeighbor nbr s'.pbestCost i = bestNeighbor nbr s.pbestCost i := by
    intro i
    unfold bestNeighbor
    rw [h.pbestCost]
    exact argminOver_map hg _ _
  simp only [this]
  split
  · rfl
  · exact gatherBest_seen hg h _

theorem starGbest_seen (hg : CostMap g) (h : SwarmSeen f fv g s s') (t : TopState n) :
    starGbest t s' = ((starGbest t s).1, (starGbest t s).2.map (seenBest f g)) := by
  have hb := h.bestCostVal hg
  unfold starGbest
  dsimp only
  rw [h.pbestCost, npArgmin_map hg]
  cases npArgmin s.pbestCost with
  | none => rfl
  | some i =>
    dsimp only
    rw [hb, hg.lt]
    split
    · rw [h.pbestPos]; rfl
    · rw [h.bestPos, h.bestCost]; rfl

theorem ringGbest_seen (hg : CostMap g) (h : SwarmSeen f fv g s s') (ho : OracleSeen f o o')
    (st : Bool) (k p : Nat) (t : TopState n) :
    ringGbest st k p o' t s' =
      ((ringGbest st k p o t s).1, (ringGbest st k p o t s).2.map (seenBest f g)) := by
  have hq : ringQuery k p o' s'.position = ringQuery k p o s.position := by
    unfold ringQuery
    rw [h.position, ho.knn]
  unfold ringGbest
  rw [hq]
  dsimp only
  split
  · rfl
  · split
    · split
      · rfl
      · rw [gatherBest_seen hg h]
    · split
      · rfl
      · rw [nbrBest_seen hg h]

theorem computeGbest_seen (hg : CostMap g) (h : SwarmSeen f fv g s s') (ho : OracleSeen f o o')
    (kind : TopKind) (args : TopArgs) (t : TopState n) :
    computeGbest kind args o' t s' =
      ((computeGbest kind args o t s).1, (computeGbest kind args o t s).2.map (seenBest f g)) := by
  unfold computeGbest
  cases kind with
  | star => exact starGbest_seen hg h t
  | ring st =>
    dsimp only
    split
    · exact ringGbest_seen hg h ho _ _ _ t
    · rfl
  | vonNeumann =>
    dsimp only
    split
    · exact ringGbest_seen hg h ho _ _ _ t
    · rfl
  | pyramid st =>
    dsimp only
    unfold pyramidGbest
    rw [h.position, ho.delaunay]
    dsimp only
    split
    · rw [h.pbestCost, npArgmin_map hg]
      cases npArgmin s.pbestCost with
      | none => rfl
      | some i => rw [h.pbestPos]; rfl
    · split
      · rfl
      · split
        · rfl
        · rw [nbrBest_seen hg h]
  | random st =>
    dsimp only
    split
    · unfold randomGbest
      rw [ho.choice]
      dsimp only
      split
      · rfl
      · split
        · rfl
        · rw [nbrBest_seen hg h]
    · rfl

end

variable [Field K] [LinearOrder K]

theorem callGbest_seen {f fv : Vec d K → Vec d K} {s s' : Swarm n d K} {o o' : Oracle n d K}
    {g : XR K → XR K} (hg : CostMap g) (h : SwarmSeen f fv g s s') (ho : OracleSeen f o o')
    (cfg cfg' : Config n d K) (hk : cfg'.kind = cfg.kind) (ha : cfg'.args = cfg.args)
    (t : TopState n) :
    callGbest cfg' o' t s' =
      ((callGbest cfg o t s).1, (callGbest cfg o t s).2.map (seenBest f g)) := by
  unfold callGbest
  rw [hk, ha]
  split <;> exact computeGbest_seen hg h ho _ _ t

/-! ### Handlers in other coordinates -/

namespace Change

variable [IsStrictOrderedRing K] {φ : Change d K} (hφ : ∀ j, 0 < φ.scale j)
include hφ

theorem lt_iff (j : Fin d) (x y : Vec d K) : φ.pt x j < φ.pt y j ↔ x (φ.perm j) < y (φ.perm j) := by
  unfold pt
  rw [add_lt_add_iff_right, mul_lt_mul_iff_right₀ (hφ j)]

theorem isLow_mat (b : Bounds d K) (x : Mat n d K) (i : Fin n) (j : Fin d) :
    isLow (φ.bounds b) (φ.mat x) i j = isLow b x i (φ.perm j) := by
  unfold isLow
  exact decide_eq_decide.2 (lt_iff hφ j (x i) b.1)

theorem isHigh_mat (b : Bounds d K) (x : Mat n d K) (i : Fin n) (j : Fin d) :
    isHigh (φ.bounds b) (φ.mat x) i j = isHigh b x i (φ.perm j) := by
  unfold isHigh
  exact decide_eq_decide.2 (lt_iff hφ j b.2 (x i))

omit [LinearOrder K] [IsStrictOrderedRing K] hφ in
theorem any_perm (q : Fin d → Bool) :
    ((List.finRange d).any fun j => q (φ.perm j)) = (List.finRange d).any q := by
  rw [Bool.eq_iff_iff, List.any_eq_true, List.any_eq_true]
  constructor
  · rintro ⟨j, -, h⟩
    exact ⟨_, List.mem_finRange _, h⟩
  · rintro ⟨j, -, h⟩
    exact ⟨φ.perm.symm j, List.mem_finRange _, by simpa using h⟩

theorem rowLow_mat (b : Bounds d K) (x : Mat n d K) (i : Fin n) :
    rowLow (φ.bounds b) (φ.mat x) i = rowLow b x i := by
  unfold rowLow
  simp only [isLow_mat hφ]
  exact any_perm (φ := φ) (fun j => isLow b x i j)

theorem rowHigh_mat (b : Bounds d K) (x : Mat n d K) (i : Fin n) :
    rowHigh (φ.bounds b) (φ.mat x) i = rowHigh b x i := by
  unfold rowHigh
  simp only [isHigh_mat hφ]
  exact any_perm (φ := φ) (fun j => isHigh b x i j)

theorem bhNearest_mat (b : Bounds d K) (x : Mat n d K) :
    bhNearest (φ.bounds b) (φ.mat x) = φ.mat (bhNearest b x) := by
  funext i j
  simp only [bhNearest, isLow_mat hφ, isHigh_mat hφ]
  simp only [bhNearest, mat, pt, bounds]
  split_ifs <;> rfl

theorem reflectPass_mat (b : Bounds d K) (x : Mat n d K) :
    reflectPass (φ.bounds b) (φ.mat x) = φ.mat (reflectPass b x) := by
  funext i j
  simp only [reflectPass, isLow_mat hφ, isHigh_mat hφ]
  simp only [reflectPass, mat, pt, bounds]
  split_ifs <;> ring

theorem anyOut_mat (b : Bounds d K) (x : Mat n d K) :
    anyOut (φ.bounds b) (φ.mat x) = anyOut b x := by
  unfold anyOut
  simp only [rowLow_mat hφ, rowHigh_mat hφ]

theorem bhReflective_mat (b : Bounds d K) (m : Nat) (x : Mat n d K) :
    bhReflective (φ.bounds b) m (φ.mat x) = (bhReflective b m x).map φ.mat := by
  induction m generalizing x with
  | zero =>
    simp only [bhReflective, anyOut_mat hφ]
    split <;> rfl
  | succ m ih =>
    simp only [bhReflective, anyOut_mat hφ]
    split
    · rw [reflectPass_mat hφ, ih]
    · rfl

theorem shrinkSigma_mat (b : Bounds d K) (m x : Mat n d K) (i : Fin n) (j : Fin d) :
    shrinkSigma (φ.bounds b) (φ.mat m) (φ.mat x) i j = shrinkSigma b m x i (φ.perm j) := by
  simp only [shrinkSigma, isLow_mat hφ, isHigh_mat hφ]
  have h0 := (hφ j).ne'
  have key : ∀ a : K, (φ.scale j * a + φ.shift j - (φ.scale j * m i (φ.perm j) + φ.shift j)) /
      (φ.scale j * x i (φ.perm j) + φ.shift j - (φ.scale j * m i (φ.perm j) + φ.shift j)) =
      (a - m i (φ.perm j)) / (x i (φ.perm j) - m i (φ.perm j)) := by
    intro a
    have e1 : φ.scale j * a + φ.shift j - (φ.scale j * m i (φ.perm j) + φ.shift j) =
      φ.scale j * (a - m i (φ.perm j)) := by ring
    have e2 : φ.scale j * x i (φ.perm j) + φ.shift j - (φ.scale j * m i (φ.perm j) + φ.shift j) =
      φ.scale j * (x i (φ.perm j) - m i (φ.perm j)) := by ring
    rw [e1, e2, mul_div_mul_left _ _ h0]
  simp only [mat, pt, bounds, key]

end Change

theorem rowMin_aux (l : List K) (acc : Option K) :
    l.foldl (fun acc a => match acc with
      | none => some a
      | some m => some (min m a)) acc =
    match acc with
    | none => (match l with
      | [] => none
      | a :: t => some (t.foldl min a))
    | some m => some (l.foldl min m) := by
  induction l generalizing acc with
  | nil => cases acc <;> rfl
  | cons a t ih =>
    rw [List.foldl_cons, ih]
    cases acc <;> rfl

theorem foldl_min_perm {l l' : List K} (h : l.Perm l') (a : K) :
    l.foldl min a = l'.foldl min a := by
  refine h.foldl_eq' (fun x _ y _ z => ?_) a
  rw [min_assoc, min_assoc, min_comm x y]

theorem rowMinList_perm {l l' : List K} (h : l.Perm l') :
    l.foldl (fun acc a => match acc with
      | none => some a
      | some m => some (min m a)) none =
    l'.foldl (fun acc a => match acc with
      | none => some a
      | some m => some (min m a)) none := by
  refine h.foldl_eq' (fun x _ y _ z => ?_) none
  cases z with
  | none => simp only [min_comm]
  | some z => simp only [min_assoc, min_comm x y]

theorem rowMin_perm (σ : Equiv.Perm (Fin d)) (v : Vec d K) :
    rowMin (fun j => v (σ j)) = rowMin v := by
  unfold rowMin
  apply rowMinList_perm
  have : (List.finRange d).map (fun j => v (σ j)) = ((List.finRange d).map σ).map v := by
    rw [List.map_map]; rfl
  rw [this]
  apply List.Perm.map
  rw [List.perm_ext_iff_of_nodup ((List.nodup_finRange d).map σ.injective) (List.nodup_finRange d)]
  intro a
  simp only [List.mem_map, List.mem_finRange, true_and, iff_true]
  exact ⟨σ.symm a, by simp⟩

namespace Change

variable [IsStrictOrderedRing K] {φ : Change d K} (hφ : ∀ j, 0 < φ.scale j)
include hφ

theorem bhShrink_mat (b : Bounds d K) (mem : Option (Mat n d K)) (x : Mat n d K) :
    bhShrink (φ.bounds b) (mem.map φ.mat) (φ.mat x) =
      ((bhShrink b mem x).1.map φ.mat, (bhShrink b mem x).2.map φ.mat) := by
  cases mem with
  | none => rfl
  | some m =>
    have hany : ((List.finRange n).any fun i => (List.finRange d).any fun j =>
        (isLow (φ.bounds b) (φ.mat x) i j || isHigh (φ.bounds b) (φ.mat x) i j) &&
          decide (φ.mat x i j - φ.mat m i j = 0)) =
        ((List.finRange n).any fun i => (List.finRange d).any fun j =>
        (isLow b x i j || isHigh b x i j) && decide (x i j - m i j = 0)) := by
      congr 1
      funext i
      rw [← any_perm (φ := φ) (fun j => (isLow b x i j || isHigh b x i j) &&
        decide (x i j - m i j = 0))]
      congr 1
      funext j
      rw [isLow_mat hφ, isHigh_mat hφ]
      congr 1
      apply decide_eq_decide.2
      have : φ.mat x i j - φ.mat m i j = φ.scale j * (x i (φ.perm j) - m i (φ.perm j)) := by
        simp only [mat, pt]; ring
      rw [this, mul_eq_zero]
      simp [(hφ j).ne']
    simp only [bhShrink, Option.map_some, hany]
    split
    · rfl
    · split
      · rfl
      · have hr : (fun i j => if (rowLow (φ.bounds b) (φ.mat x) i ||
            rowHigh (φ.bounds b) (φ.mat x) i) = true then
            match rowMin (shrinkSigma (φ.bounds b) (φ.mat m) (φ.mat x) i) with
              | some s => φ.mat m i j + s * (φ.mat x i j - φ.mat m i j)
              | none => φ.mat x i j
            else φ.mat x i j) = φ.mat fun i j => if (rowLow b x i || rowHigh b x i) = true then
            match rowMin (shrinkSigma b m x i) with
              | some s => m i j + s * (x i j - m i j)
              | none => x i j
            else x i j := by
          funext i j
          rw [rowLow_mat hφ, rowHigh_mat hφ]
          have hs : shrinkSigma (φ.bounds b) (φ.mat m) (φ.mat x) i =
              fun j => shrinkSigma b m x i (φ.perm j) := by
            funext j; exact shrinkSigma_mat hφ b m x i j
          rw [hs, rowMin_perm]
          simp only [mat, pt]
          split
          · split
            · ring
            · rfl
          · rfl
        exact Prod.ext (congrArg some hr) (congrArg Except.ok hr)

theorem bhRandom_mat (b : Bounds d K) (u l : Vec d K) (x : Mat n d K) :
    bhRandom (φ.bounds b) (φ.ren u) (φ.ren l) (φ.mat x) = φ.mat (bhRandom b u l x) := by
  funext i j
  simp only [bhRandom, rowLow_mat hφ, rowHigh_mat hφ]
  simp only [bhRandom, mat, pt, bounds, ren]
  split_ifs <;> ring

theorem bhIntermediate_mat (b : Bounds d K) (mem : Option (Mat n d K)) (x : Mat n d K) :
    bhIntermediate (φ.bounds b) (mem.map φ.mat) (φ.mat x) =
      ((bhIntermediate b mem x).1.map φ.mat, (bhIntermediate b mem x).2.map φ.mat) := by
  cases mem with
  | none => rfl
  | some m =>
    have hr : (fun i j =>
        let p1 := if isLow (φ.bounds b) (φ.mat x) i j then (1 / 2) * (φ.mat m i j + (φ.bounds b).1 j)
          else φ.mat x i j
        if isHigh (φ.bounds b) (φ.mat x) i j then (1 / 2) * (φ.mat m i j + (φ.bounds b).2 j)
          else p1) = φ.mat fun i j =>
        let p1 := if isLow b x i j then (1 / 2) * (m i j + b.1 j) else x i j
        if isHigh b x i j then (1 / 2) * (m i j + b.2 j) else p1 := by
      funext i j
      simp only [isLow_mat hφ, isHigh_mat hφ]
      simp only [mat, pt, bounds]
      split
      · ring
      · split
        · ring
        · rfl
    simp only [bhIntermediate, Option.map_some]
    dsimp only at hr
    rw [hr]
    rfl

theorem npMod_scale [FloorRing K] {c : K} (hc : c ≠ 0) (a s : K) :
    npMod (c * a) (c * s) = c * npMod a s := by
  unfold npMod
  rw [mul_div_mul_left _ _ hc]
  ring

theorem bhPeriodic_mat [FloorRing K] (b : Bounds d K) (x : Mat n d K) :
    bhPeriodic (φ.bounds b) (φ.mat x) = (bhPeriodic b x).map φ.mat := by
  have habs : ∀ j, |(φ.bounds b).2 j - (φ.bounds b).1 j| =
      φ.scale j * |b.2 (φ.perm j) - b.1 (φ.perm j)| := by
    intro j
    have : (φ.bounds b).2 j - (φ.bounds b).1 j =
        φ.scale j * (b.2 (φ.perm j) - b.1 (φ.perm j)) := by
      simp only [bounds, pt]; ring
    rw [this, abs_mul, abs_of_pos (hφ j)]
  have hany : ((List.finRange n).any fun i => (List.finRange d).any fun j =>
        (isLow (φ.bounds b) (φ.mat x) i j || isHigh (φ.bounds b) (φ.mat x) i j) &&
          decide (|(φ.bounds b).2 j - (φ.bounds b).1 j| = 0)) =
        ((List.finRange n).any fun i => (List.finRange d).any fun j =>
        (isLow b x i j || isHigh b x i j) && decide (|b.2 j - b.1 j| = 0)) := by
    congr 1
    funext i
    rw [← any_perm (φ := φ) (fun j => (isLow b x i j || isHigh b x i j) &&
      decide (|b.2 j - b.1 j| = 0))]
    congr 1
    funext j
    rw [isLow_mat hφ, isHigh_mat hφ]
    congr 1
    apply decide_eq_decide.2
    rw [habs, mul_eq_zero]
    simp [(hφ j).ne']
  unfold bhPeriodic
  rw [hany]
  split
  · rfl
  · refine congrArg Except.ok ?_
    funext i j
    simp only [isLow_mat hφ, isHigh_mat hφ, habs]
    simp only [mat, pt, bounds]
    have h0 := (hφ j).ne'
    split
    · split
      · rw [show φ.scale j * b.1 (φ.perm j) + φ.shift j - (φ.scale j * x i (φ.perm j) + φ.shift j) =
          φ.scale j * (b.1 (φ.perm j) - x i (φ.perm j)) by ring, npMod_scale hφ h0]
        rw [show φ.scale j * b.2 (φ.perm j) + φ.shift j - φ.scale j * npMod (b.1 (φ.perm j) -
          x i (φ.perm j)) |b.2 (φ.perm j) - b.1 (φ.perm j)| -
          (φ.scale j * b.2 (φ.perm j) + φ.shift j) = φ.scale j * (b.2 (φ.perm j) - npMod (b.1 (φ.perm j) -
          x i (φ.perm j)) |b.2 (φ.perm j) - b.1 (φ.perm j)| - b.2 (φ.perm j)) by ring, npMod_scale hφ h0]
        ring
      · rw [show φ.scale j * x i (φ.perm j) + φ.shift j - (φ.scale j * b.2 (φ.perm j) + φ.shift j) =
          φ.scale j * (x i (φ.perm j) - b.2 (φ.perm j)) by ring, npMod_scale hφ h0]
        ring
    · split
      · rw [show φ.scale j * b.1 (φ.perm j) + φ.shift j - (φ.scale j * x i (φ.perm j) + φ.shift j) =
          φ.scale j * (b.1 (φ.perm j) - x i (φ.perm j)) by ring, npMod_scale hφ h0]
        ring
      · rfl

/-- The draws of a boundary handler call, with the dimensions renamed. -/
def bhDraw (φ : Change d K) (r : BHDraw d K) : BHDraw d K := ⟨φ.ren r.u, φ.ren r.l, r.passes⟩

theorem bhCall_mat [FloorRing K] (st : String) (mem : Option (Mat n d K)) (b : Bounds d K)
    (r : BHDraw d K) (x : Mat n d K) :
    bhCall st (mem.map φ.mat) (φ.bounds b) (bhDraw φ r) (φ.mat x) =
      ((bhCall st mem b r x).1.map φ.mat, (bhCall st mem b r x).2.map φ.mat) := by
  unfold bhCall
  split
  · rw [bhNearest_mat hφ]; rfl
  · split
    · rw [show (bhDraw φ r).passes = r.passes from rfl, bhReflective_mat hφ]
    · split
      · exact bhShrink_mat hφ b mem x
      · split
        · rw [show (bhDraw φ r).u = φ.ren r.u from rfl, show (bhDraw φ r).l = φ.ren r.l from rfl,
            bhRandom_mat hφ]
          rfl
        · split
          · exact bhIntermediate_mat hφ b mem x
          · split
            · rw [bhPeriodic_mat hφ]
            · rfl

theorem applyClamp_vmat (c : Clamp d K) (v : Mat n d K) :
    applyClamp (φ.clamp c) (φ.vmat v) = φ.vmat (applyClamp c v) := by
  funext i j
  simp only [applyClamp, vmat, vec, clamp]
  have h : ∀ a b : K, φ.scale j * a ≤ φ.scale j * b ↔ a ≤ b := fun a b =>
    mul_le_mul_iff_right₀ (hφ j)
  simp only [h, ge_iff_le, decide_eq_true_eq]
  split_ifs <;> rfl

theorem clampOpt_vmat (c : Option (Clamp d K)) (v : Mat n d K) :
    clampOpt (c.map φ.clamp) (φ.vmat v) = φ.vmat (clampOpt c v) := by
  cases c with
  | none => rfl
  | some c => exact applyClamp_vmat hφ c v

theorem vhCall_mat (st : String) (mem : Option (Mat n d K)) (c : Option (Clamp d K))
    (x : Mat n d K) (b : Option (Bounds d K)) (v : Mat n d K) :
    vhCall st (mem.map φ.mat) (c.map φ.clamp)
        { position := some (φ.mat x), bounds := some (b.map φ.bounds) } (φ.vmat v) =
      ((vhCall st mem c { position := some x, bounds := some b } v).1.map φ.mat,
       (vhCall st mem c { position := some x, bounds := some b } v).2.map φ.vmat) := by
  unfold vhCall
  split
  · simp only [vhUnmodified, clampOpt_vmat hφ]; rfl
  · split
    · unfold vhAdjust
      cases mem with
      | none => rfl
      | some m =>
        simp only [Option.map_some]
        have : (fun i j => φ.mat x i j - φ.mat m i j) = φ.vmat fun i j => x i j - m i j := by
          funext i j
          simp only [mat, pt, vmat, vec]; ring
        rw [this, clampOpt_vmat hφ]
        rfl
    · split
      · unfold vhInvert
        cases b with
        | none => rfl
        | some b =>
          simp only [Option.map_some, rowLow_mat hφ, rowHigh_mat hφ]
          refine Prod.ext rfl (congrArg Except.ok ?_)
          rw [← clampOpt_vmat hφ]
          congr 1
          funext i j
          simp only [vmat, vec]
          split_ifs <;> ring
      · split
        · unfold vhZero
          cases b with
          | none => rfl
          | some b =>
            simp only [Option.map_some, rowLow_mat hφ, rowHigh_mat hφ]
            refine Prod.ext rfl (congrArg Except.ok ?_)
            funext i j
            simp only [vmat, vec]
            split_ifs <;> simp
        · rfl

end Change

end PySwarms
