import Verif.Lemmas.Star
import Verif.Lemmas.Sim
import Mathlib.Logic.Equiv.Defs
import Mathlib.Data.List.Perm.Basic
import Mathlib.Data.List.Dedup

/-! Renumbering the particles of a run. -/

set_option linter.unusedSectionVars false

namespace PySwarms

variable {n d : Nat} {K : Type}

/-- Row `i` of the result is row `π i` of the argument. -/
def pick {α : Type} (π : Equiv.Perm (Fin n)) (x : Fin n → α) : Fin n → α := fun i => x (π i)

/-- Lists of neighbours in the new numbering. -/
def pickNbr (π : Equiv.Perm (Fin n)) (nbr : Fin n → List (Fin n)) : Fin n → List (Fin n) :=
  fun i => (nbr (π i)).map π.symm

/-- The best position in the new numbering. -/
def BestPos.pick (π : Equiv.Perm (Fin n)) : BestPos n d K → BestPos n d K
  | .empty => .empty
  | .single v => .single v
  | .perParticle m => .perParticle (PySwarms.pick π m)

theorem finRange_perm (π : Equiv.Perm (Fin n)) :
    ((List.finRange n).map π).Perm (List.finRange n) := by
  rw [List.perm_ext_iff_of_nodup ((List.nodup_finRange n).map π.injective) (List.nodup_finRange n)]
  intro a
  simp only [List.mem_map, List.mem_finRange, true_and, iff_true]
  exact ⟨π.symm a, π.apply_symm_apply a⟩

theorem any_pick (π : Equiv.Perm (Fin n)) (f : Fin n → Bool) :
    ((List.finRange n).any fun i => f (π i)) = (List.finRange n).any f := by
  rw [Bool.eq_iff_iff]
  simp only [List.any_eq_true, List.mem_finRange, true_and]
  exact ⟨fun ⟨i, h⟩ => ⟨π i, h⟩, fun ⟨i, h⟩ => ⟨π.symm i, by rw [π.apply_symm_apply]; exact h⟩⟩

theorem all_pick (π : Equiv.Perm (Fin n)) (f : Fin n → Bool) :
    ((List.finRange n).all fun i => f (π i)) = (List.finRange n).all f := by
  rw [Bool.eq_iff_iff]
  simp only [List.all_eq_true, List.mem_finRange, true_implies]
  exact ⟨fun h i => by have := h (π.symm i); rwa [π.apply_symm_apply] at this, fun h i => h _⟩

section handlers
variable [Field K] [LinearOrder K] (π : Equiv.Perm (Fin n))

theorem anyOut_pick (b : Bounds d K) (x : Mat n d K) : anyOut b (pick π x) = anyOut b x :=
  any_pick π fun i => rowLow b x i || rowHigh b x i

theorem reflective_pick (b : Bounds d K) (m : Nat) (x : Mat n d K) :
    bhReflective b m (pick π x) = (bhReflective b m x).map (pick π) := by
  induction m generalizing x with
  | zero =>
    unfold bhReflective
    rw [anyOut_pick]
    split <;> rfl
  | succ m ih =>
    unfold bhReflective
    rw [anyOut_pick]
    split
    · exact ih (reflectPass b x)
    · rfl

theorem shrink_pick (b : Bounds d K) (mem : Option (Mat n d K)) (x : Mat n d K) :
    bhShrink b (mem.map (pick π)) (pick π x) =
      ((bhShrink b mem x).1.map (pick π), (bhShrink b mem x).2.map (pick π)) := by
  cases mem with
  | none => rfl
  | some m =>
    unfold bhShrink
    dsimp only [Option.map_some]
    rw [show ((List.finRange n).any fun i => (List.finRange d).any fun j =>
        (isLow b (pick π x) i j || isHigh b (pick π x) i j) &&
          decide (pick π x i j - pick π m i j = 0)) =
      ((List.finRange n).any fun i => (List.finRange d).any fun j =>
        (isLow b x i j || isHigh b x i j) && decide (x i j - m i j = 0)) from
      any_pick π fun i => (List.finRange d).any fun j =>
        (isLow b x i j || isHigh b x i j) && decide (x i j - m i j = 0)]
    split
    · rfl
    · split
      · rfl
      · rfl

theorem periodic_pick [FloorRing K] (b : Bounds d K) (x : Mat n d K) :
    bhPeriodic b (pick π x) = (bhPeriodic b x).map (pick π) := by
  unfold bhPeriodic
  rw [show ((List.finRange n).any fun i => (List.finRange d).any fun j =>
      (isLow b (pick π x) i j || isHigh b (pick π x) i j) && decide (|b.2 j - b.1 j| = 0)) =
    ((List.finRange n).any fun i => (List.finRange d).any fun j =>
      (isLow b x i j || isHigh b x i j) && decide (|b.2 j - b.1 j| = 0)) from
    any_pick π fun i => (List.finRange d).any fun j =>
      (isLow b x i j || isHigh b x i j) && decide (|b.2 j - b.1 j| = 0)]
  split <;> rfl

theorem bhCall_pick [FloorRing K] (st : String) (mem : Option (Mat n d K)) (b : Bounds d K)
    (r : BHDraw d K) (x : Mat n d K) :
    bhCall st (mem.map (pick π)) b r (pick π x) =
      ((bhCall st mem b r x).1.map (pick π), (bhCall st mem b r x).2.map (pick π)) := by
  unfold bhCall
  split
  · rfl
  · split
    · rw [reflective_pick]
    · split
      · exact shrink_pick π b mem x
      · split
        · rfl
        · split
          · cases mem <;> rfl
          · split
            · rw [periodic_pick]
            · rfl

theorem clampOpt_pick (c : Option (Clamp d K)) (v : Mat n d K) :
    clampOpt c (pick π v) = pick π (clampOpt c v) := by
  cases c <;> rfl

theorem vhCall_pick (st : String) (mem : Option (Mat n d K)) (c : Option (Clamp d K))
    (x : Mat n d K) (b : Option (Option (Bounds d K))) (z : Option K) (v : Mat n d K) :
    vhCall st (mem.map (pick π)) c ⟨some (pick π x), b, z⟩ (pick π v) =
      ((vhCall st mem c ⟨some x, b, z⟩ v).1.map (pick π),
        (vhCall st mem c ⟨some x, b, z⟩ v).2.map (pick π)) := by
  unfold vhCall
  split
  · unfold vhUnmodified
    rw [clampOpt_pick]
    rfl
  · split
    · cases mem <;> cases c <;> rfl
    · split
      · cases c <;> rcases b with _ | _ | b <;> rfl
      · split
        · rcases b with _ | _ | b <;> rfl
        · rfl

end handlers

/-- The second swarm is the first with its particles renumbered. -/
structure SwarmPick (π : Equiv.Perm (Fin n)) (s s' : Swarm n d K) : Prop where
  position : s'.position = pick π s.position
  velocity : s'.velocity = pick π s.velocity
  options : s'.options = s.options
  pbestPos : s'.pbestPos = pick π s.pbestPos
  pbestCost : s'.pbestCost = pick π s.pbestCost
  bestPos : s'.bestPos = s.bestPos.pick π
  bestCost : s'.bestCost = s.bestCost
  currentCost : s'.currentCost = pick π s.currentCost

/-- The second topology object is the first with the particles renumbered: it stores the same sets
of neighbours. -/
def TopPick (π : Equiv.Perm (Fin n)) (t t' : TopState n) : Prop :=
  t'.ndim = t.ndim ∧
    match t.neighbor, t'.neighbor with
    | none, none => True
    | some a, some b => ∀ i, (b i).Perm (pickNbr π a i)
    | _, _ => False

section gbest
variable [LinearOrder K] {π : Equiv.Perm (Fin n)} {s s' : Swarm n d K}

/-- Personal bests are comparable and particles with the same personal best cost have the same
personal best position. -/
def Untied (s : Swarm n d K) : Prop :=
  (∀ i, s.pbestCost i ≠ XR.nan) ∧
    ∀ i j, s.pbestCost i = s.pbestCost j → s.pbestPos i = s.pbestPos j

theorem npMin_pick (π : Equiv.Perm (Fin n)) (c : Costs n K) (hc : ∀ i, c i ≠ XR.nan) :
    npMin (pick π c) = npMin c := by
  rcases Nat.eq_zero_or_pos n with h0 | hn
  · subst h0
    have e : pick π c = c := funext fun i => i.elim0
    rw [e]
  · obtain ⟨k, h1, h2, _⟩ := npArgmin_spec c hn hc
    obtain ⟨k', h1', h2', _⟩ := npArgmin_spec (pick π c) hn fun i => hc _
    unfold npMin
    rw [h1, h1']
    simp only [Option.map_some, Option.some.injEq]
    refine XR.eq_of_not_lt (hc _) (hc _) (h2 (π k')) ?_
    have := h2' (π.symm k)
    unfold pick at this
    rw [π.apply_symm_apply] at this
    exact this

/-- The first minimum has the same cost and the same position in both numberings. -/
theorem npArgmin_pick (h : SwarmPick π s s') (hu : Untied s) :
    (npArgmin s.pbestCost = none ∧ npArgmin s'.pbestCost = none) ∨
    ∃ k k', npArgmin s.pbestCost = some k ∧ npArgmin s'.pbestCost = some k' ∧
      s'.pbestCost k' = s.pbestCost k ∧ s'.pbestPos k' = s.pbestPos k := by
  rcases Nat.eq_zero_or_pos n with h0 | hn
  · exact Or.inl ⟨(npArgmin_none _).2 h0, (npArgmin_none _).2 h0⟩
  · obtain ⟨k, h1, h2, _⟩ := npArgmin_spec s.pbestCost hn hu.1
    obtain ⟨k', h1', h2', _⟩ := npArgmin_spec s'.pbestCost hn fun i => by
      rw [h.pbestCost]; exact hu.1 _
    right
    refine ⟨k, k', h1, h1', ?_⟩
    rw [h.pbestCost, h.pbestPos]
    rw [h.pbestCost] at h2'
    unfold pick at h2' ⊢
    have e : s.pbestCost (π k') = s.pbestCost k := by
      refine XR.eq_of_not_lt (hu.1 _) (hu.1 _) (h2 (π k')) ?_
      have := h2' (π.symm k)
      rw [π.apply_symm_apply] at this
      exact this
    exact ⟨e, hu.2 _ _ e⟩

theorem gatherBest_pick {bn bn' : Fin n → Fin n} (hn : ∀ i, s.pbestCost i ≠ XR.nan)
    (hc : ∀ i, s'.pbestCost (bn' i) = s.pbestCost (bn (π i)))
    (hp : ∀ i, s'.pbestPos (bn' i) = s.pbestPos (bn (π i))) :
    gatherBest bn' s' = (gatherBest bn s).map fun g => (g.1.pick π, g.2) := by
  unfold gatherBest
  rw [show (fun i => s'.pbestCost (bn' i)) = pick π fun i => s.pbestCost (bn i) from funext hc,
    npMin_pick π _ fun i => hn _,
    show (fun i => s'.pbestPos (bn' i)) = pick π fun i => s.pbestPos (bn i) from funext hp]
  cases npMin (fun i => s.pbestCost (bn i)) <;> rfl

theorem nbrBest_pick (h : SwarmPick π s s') (hu : Untied s) {nbr nbr' : Fin n → List (Fin n)}
    (hnbr : ∀ i, (nbr' i).Perm (pickNbr π nbr i)) :
    nbrBest nbr' s' = (nbrBest nbr s).map fun g => (g.1.pick π, g.2) := by
  have key : ∀ i, (bestNeighbor nbr s.pbestCost (π i) = none ∧
        bestNeighbor nbr' s'.pbestCost i = none) ∨
      ∃ k k', bestNeighbor nbr s.pbestCost (π i) = some k ∧
        bestNeighbor nbr' s'.pbestCost i = some k' ∧ s'.pbestCost k' = s.pbestCost k ∧
        s'.pbestPos k' = s.pbestPos k := by
    intro i
    unfold bestNeighbor
    by_cases he : nbr (π i) = []
    · left
      rw [argminOver_eq_none_iff, argminOver_eq_none_iff]
      refine ⟨he, ?_⟩
      have := hnbr i
      unfold pickNbr at this
      rw [he, List.map_nil] at this
      exact this.eq_nil
    · right
      have he' : nbr' i ≠ [] := by
        intro h0
        have := hnbr i
        rw [h0] at this
        have := this.symm.eq_nil
        unfold pickNbr at this
        rw [List.map_eq_nil_iff] at this
        exact he this
      obtain ⟨k, _, _, h1, h2, _, h4⟩ := argminOver_spec s.pbestCost _ he fun i _ => hu.1 i
      obtain ⟨k', _, _, h1', h2', _, h4'⟩ := argminOver_spec s'.pbestCost _ he' fun i _ => by
        rw [h.pbestCost]; exact hu.1 _
      have hk : k ∈ nbr (π i) := argminOver_mem h1
      have hk' : k' ∈ nbr' i := argminOver_mem h1'
      have m1 : π k' ∈ nbr (π i) := by
        have := (hnbr i).subset hk'
        unfold pickNbr at this
        rw [List.mem_map] at this
        obtain ⟨a, ha, rfl⟩ := this
        rw [π.apply_symm_apply]
        exact ha
      have m2 : π.symm k ∈ nbr' i :=
        (hnbr i).symm.subset (List.mem_map.2 ⟨k, hk, rfl⟩)
      have e : s.pbestCost (π k') = s.pbestCost k := by
        refine XR.eq_of_not_lt (hu.1 _) (hu.1 _) (h4 _ m1) ?_
        have := h4' _ m2
        rw [h.pbestCost] at this
        unfold pick at this
        rw [π.apply_symm_apply] at this
        exact this
      refine ⟨k, k', h1, h1', ?_, ?_⟩
      · rw [h.pbestCost]; exact e
      · rw [h.pbestPos]; exact hu.2 _ _ e
  unfold nbrBest
  have hany : ((List.finRange n).any fun i => (bestNeighbor nbr' s'.pbestCost i).isNone) =
      (List.finRange n).any fun i => (bestNeighbor nbr s.pbestCost i).isNone := by
    rw [← any_pick π fun i => (bestNeighbor nbr s.pbestCost i).isNone]
    congr 1
    funext i
    rcases key i with ⟨h1, h2⟩ | ⟨k, k', h1, h2, _⟩ <;> simp [h1, h2]
  rw [hany]
  split
  · rfl
  · next hno =>
    refine gatherBest_pick hu.1 (fun i => ?_) (fun i => ?_)
    · rcases key i with ⟨h1, _⟩ | ⟨k, k', h1, h2, h3, _⟩
      · exfalso
        apply hno
        rw [List.any_eq_true]
        exact ⟨π i, List.mem_finRange _, by rw [h1]; rfl⟩
      · rw [h1, h2]
        exact h3
    · rcases key i with ⟨h1, _⟩ | ⟨k, k', h1, h2, _, h3⟩
      · exfalso
        apply hno
        rw [List.any_eq_true]
        exact ⟨π i, List.mem_finRange _, by rw [h1]; rfl⟩
      · rw [h1, h2]
        exact h3

theorem allNeighbors_pick (i : Fin n) :
    (allNeighbors n i).Perm (pickNbr π (allNeighbors n) i) := (finRange_perm π.symm).symm

theorem bestCostVal_pick (h : SwarmPick π s s') : s'.bestCostVal = s.bestCostVal := by
  unfold Swarm.bestCostVal
  rw [h.bestCost]

/-- Two answers of a topology, the second in the new numbering. -/
def AnsPick (π : Equiv.Perm (Fin n)) (a b : TopState n × Except Err (GBest n d K)) : Prop :=
  TopPick π a.1 b.1 ∧ b.2 = a.2.map fun g => (g.1.pick π, g.2)

theorem starGbest_pick (h : SwarmPick π s s') (hu : Untied s) {t t' : TopState n}
    (ht : TopPick π t t') : AnsPick π (starGbest t s) (starGbest t' s') := by
  have htop : TopPick π (starGbest t s).1 (starGbest t' s').1 := by
    have : ∀ (t : TopState n) (s : Swarm n d K), (starGbest t s).1 = match t.neighbor with
      | none => { neighbor := some (allNeighbors n), ndim := 2 }
      | some _ => t := by
      intro t s
      unfold starGbest
      dsimp only
      split
      · rfl
      · split <;> rfl
    rw [this, this]
    obtain ⟨h1, h2⟩ := ht
    cases ha : t.neighbor with
    | none =>
      cases hb : t'.neighbor with
      | none => exact ⟨rfl, allNeighbors_pick⟩
      | some _ => rw [ha, hb] at h2; exact h2.elim
    | some _ =>
      cases hb : t'.neighbor with
      | none => rw [ha, hb] at h2; exact h2.elim
      | some _ => exact ⟨h1, h2⟩
  refine ⟨htop, ?_⟩
  unfold starGbest
  dsimp only
  rcases npArgmin_pick h hu with ⟨h1, h2⟩ | ⟨k, k', h1, h2, h3, h4⟩
  · rw [h1, h2]; rfl
  · rw [h1, h2]
    dsimp only
    rw [h3, h4, bestCostVal_pick h, h.bestPos, h.bestCost]
    split <;> rfl

/-- The oracles answer in the new numbering. -/
structure OraclePick (π : Equiv.Perm (Fin n)) (o o' : Oracle n d K) : Prop where
  knn : ∀ k p x, o'.knn k p (pick π x) = pickNbr π (o.knn k p x)
  delaunay : ∀ x, o'.delaunay (pick π x) = (o.delaunay x).map (pickNbr π)
  choice : ∀ k, o'.choice k = pickNbr π (o.choice k)

variable {o o' : Oracle n d K}

theorem topPick_mk {a b : Fin n → List (Fin n)} {m : Nat} (h : ∀ i, (b i).Perm (pickNbr π a i)) :
    TopPick π { neighbor := some a, ndim := m } { neighbor := some b, ndim := m } := ⟨rfl, h⟩

theorem ringGbest_pick (h : SwarmPick π s s') (hu : Untied s) (ho : OraclePick π o o')
    {t t' : TopState n} (ht : TopPick π t t') (st : Bool) (k p : Nat) :
    AnsPick π (ringGbest st k p o t s) (ringGbest st k p o' t' s') := by
  have hnone : t'.neighbor.isNone = t.neighbor.isNone := by
    have := ht.2
    cases ha : t.neighbor <;> cases hb : t'.neighbor <;> rw [ha, hb] at this
    · exact this.elim
    · exact this.elim
    · rfl
  have hq : ExRel (TopPick π)
      (if (st && t.neighbor.isNone) || !st then ringQuery k p o s.position else .ok t : Except Err (TopState n))
      (if (st && t'.neighbor.isNone) || !st then ringQuery k p o' s'.position else .ok t' : Except Err (TopState n)) := by
    rw [hnone]
    split
    · unfold ringQuery
      split
      · exact rfl
      · split
        · exact rfl
        · refine topPick_mk fun i => ?_
          rw [h.position, ho.knn]
    · exact ht
  unfold ringGbest
  dsimp only
  generalize (if (st && t.neighbor.isNone) || !st then ringQuery k p o s.position
    else .ok t : Except Err (TopState n)) = q at hq
  generalize (if (st && t'.neighbor.isNone) || !st then ringQuery k p o' s'.position
    else .ok t' : Except Err (TopState n)) = q' at hq
  cases q with
  | error e => rw [exRel_error hq]; exact ⟨ht, rfl⟩
  | ok t1 =>
    obtain ⟨t1', rfl, h1⟩ := exRel_ok hq
    dsimp only
    split
    · rw [h1.1]
      split
      · exact ⟨h1, rfl⟩
      · refine ⟨⟨rfl, h1.2⟩, gatherBest_pick hu.1 (fun i => ?_) (fun i => ?_)⟩
        · rw [h.pbestCost]; rfl
        · rw [h.pbestPos]; rfl
    · have h2 := h1.2
      cases ha : t1.neighbor with
      | none =>
        cases hb : t1'.neighbor with
        | none => exact ⟨h1, rfl⟩
        | some _ => rw [ha, hb] at h2; exact h2.elim
      | some _ =>
        cases hb : t1'.neighbor with
        | none => rw [ha, hb] at h2; exact h2.elim
        | some _ =>
          rw [ha, hb] at h2
          exact ⟨h1, nbrBest_pick h hu h2⟩

theorem pyramidGbest_pick (h : SwarmPick π s s') (hu : Untied s) (ho : OraclePick π o o')
    {t t' : TopState n} (ht : TopPick π t t') (st : Bool) :
    AnsPick π (pyramidGbest st o t s) (pyramidGbest st o' t' s') := by
  have hnone : t'.neighbor.isNone = t.neighbor.isNone := by
    have := ht.2
    cases ha : t.neighbor <;> cases hb : t'.neighbor <;> rw [ha, hb] at this
    · exact this.elim
    · exact this.elim
    · rfl
  unfold pyramidGbest
  split
  · dsimp only
    rcases npArgmin_pick h hu with ⟨h1, h2⟩ | ⟨k, k', h1, h2, h3, h4⟩
    · rw [h1, h2]
      exact ⟨topPick_mk allNeighbors_pick, rfl⟩
    · rw [h1, h2]
      dsimp only
      rw [h3, h4]
      exact ⟨topPick_mk allNeighbors_pick, rfl⟩
  · dsimp only
    have hq : ExRel (TopPick π)
        (if (st && t.neighbor.isNone) || !st then
          match o.delaunay s.position with
          | .error e => .error e
          | .ok nbr => .ok ({ neighbor := some nbr, ndim := 1 } : TopState n)
        else .ok t : Except Err (TopState n))
        (if (st && t'.neighbor.isNone) || !st then
          match o'.delaunay s'.position with
          | .error e => .error e
          | .ok nbr => .ok ({ neighbor := some nbr, ndim := 1 } : TopState n)
        else .ok t' : Except Err (TopState n)) := by
      rw [hnone]
      split
      · rw [h.position, ho.delaunay]
        cases o.delaunay s.position with
        | error e => exact rfl
        | ok nbr => exact topPick_mk fun i => List.Perm.refl _
      · exact ht
    generalize (if (st && t.neighbor.isNone) || !st then
          match o.delaunay s.position with
          | .error e => .error e
          | .ok nbr => .ok ({ neighbor := some nbr, ndim := 1 } : TopState n)
        else .ok t : Except Err (TopState n)) = q at hq
    generalize (if (st && t'.neighbor.isNone) || !st then
          match o'.delaunay s'.position with
          | .error e => .error e
          | .ok nbr => .ok ({ neighbor := some nbr, ndim := 1 } : TopState n)
        else .ok t' : Except Err (TopState n)) = q' at hq
    cases q with
    | error e => rw [exRel_error hq]; exact ⟨ht, rfl⟩
    | ok t1 =>
      obtain ⟨t1', rfl, h1⟩ := exRel_ok hq
      dsimp only
      have h2 := h1.2
      cases ha : t1.neighbor with
      | none =>
        cases hb : t1'.neighbor with
        | none => exact ⟨h1, rfl⟩
        | some _ => rw [ha, hb] at h2; exact h2.elim
      | some _ =>
        cases hb : t1'.neighbor with
        | none => rw [ha, hb] at h2; exact h2.elim
        | some _ =>
          rw [ha, hb] at h2
          exact ⟨h1, nbrBest_pick h hu h2⟩

end gbest

/-! ### The Random topology -/

section random
variable (π : Equiv.Perm (Fin n))

/-- An adjacency matrix in the new numbering. -/
def pickAdj (a : Adj n) : Adj n := fun i j => a (π i) (π j)

theorem drawnAdj_pick (choice : Fin n → List (Fin n)) :
    drawnAdj (pickNbr π choice) = pickAdj π (drawnAdj choice) := by
  funext i j
  unfold drawnAdj pickAdj pickNbr
  have hm : ∀ a b : Fin n, b ∈ (choice (π a)).map π.symm ↔ π b ∈ choice (π a) := by
    intro a b
    rw [List.mem_map]
    constructor
    · rintro ⟨c, hc, rfl⟩
      rwa [π.apply_symm_apply]
    · intro hb
      exact ⟨_, hb, π.symm_apply_apply b⟩
  rw [decide_eq_decide.2 (hm i j), decide_eq_decide.2 (hm j i),
    decide_eq_decide.2 (π.injective.eq_iff (a := i) (b := j)).symm]

theorem reachIn_pick (a : Adj n) (m : Nat) (i j : Fin n) :
    reachIn (pickAdj π a) m i j = reachIn a m (π i) (π j) := by
  induction m generalizing j with
  | zero =>
    unfold reachIn
    rw [Bool.eq_iff_iff, beq_iff_eq, beq_iff_eq]
    exact π.injective.eq_iff.symm
  | succ m ih =>
    unfold reachIn
    rw [ih, ← any_pick π fun k => reachIn a m (π i) k && undirected a k (π j)]
    congr 2
    funext k
    rw [ih]
    rfl

theorem isConnected_pick (a : Adj n) : isConnected (pickAdj π a) = isConnected a := by
  unfold isConnected reachable
  rw [← all_pick π fun i => (List.finRange n).all fun j => reachIn a n i j]
  congr 2
  funext i
  rw [← all_pick π fun j => reachIn a n (π i) j]
  congr 1
  funext j
  exact reachIn_pick π a n i j

theorem addMissing_pick (a0 a : Adj n) :
    addMissing (pickAdj π a0) (pickAdj π a) = pickAdj π (addMissing a0 a) := by
  funext i j
  unfold addMissing reachable
  rw [reachIn_pick]
  rfl

theorem repairLoop_pick (a0 : Adj n) (m : Nat) (a : Adj n) :
    repairLoop (pickAdj π a0) m (pickAdj π a) =
      (repairLoop a0 m a).map fun r => (pickAdj π r.1, r.2) := by
  induction m generalizing a with
  | zero =>
    unfold repairLoop
    rw [isConnected_pick]
    split <;> rfl
  | succ m ih =>
    unfold repairLoop
    rw [isConnected_pick, addMissing_pick, ih]
    split
    · rfl
    · cases repairLoop a0 m (addMissing a0 a) <;> rfl

theorem randomNeighbors_pick (k : Nat) (choice : Fin n → List (Fin n)) :
    randomNeighbors k (pickNbr π choice) = (randomNeighbors k choice).map (pickAdj π) := by
  unfold randomNeighbors
  rw [drawnAdj_pick, repairLoop_pick]
  split
  · rfl
  · split
    · rfl
    · cases repairLoop (drawnAdj choice) 2 (drawnAdj choice) <;> rfl

theorem adjLists_pick (a : Adj n) (i : Fin n) :
    (adjLists (pickAdj π a) i).Perm (pickNbr π (adjLists a) i) := by
  unfold adjLists pickNbr pickAdj
  refine ((finRange_perm π.symm).symm.filter _).trans ?_
  rw [List.filter_map]
  have : ((fun j => a (π i) (π j)) ∘ π.symm) = fun j => a (π i) j := by
    funext j
    simp
  rw [this]

variable [LinearOrder K] {π} {s s' : Swarm n d K} {o o' : Oracle n d K}

theorem randomGbest_pick (h : SwarmPick π s s') (hu : Untied s) (ho : OraclePick π o o')
    {t t' : TopState n} (ht : TopPick π t t') (st : Bool) (k : Nat) :
    AnsPick π (randomGbest st k o t s) (randomGbest st k o' t' s') := by
  have hnone : t'.neighbor.isNone = t.neighbor.isNone := by
    have := ht.2
    cases ha : t.neighbor <;> cases hb : t'.neighbor <;> rw [ha, hb] at this
    · exact this.elim
    · exact this.elim
    · rfl
  unfold randomGbest
  dsimp only
  have hq : ExRel (TopPick π)
      (if (st && t.neighbor.isNone) || !st then
        match randomNeighbors k (o.choice k) with
        | .error e => .error e
        | .ok a => .ok ({ neighbor := some (adjLists a), ndim := 1 } : TopState n)
      else .ok t : Except Err (TopState n))
      (if (st && t'.neighbor.isNone) || !st then
        match randomNeighbors k (o'.choice k) with
        | .error e => .error e
        | .ok a => .ok ({ neighbor := some (adjLists a), ndim := 1 } : TopState n)
      else .ok t' : Except Err (TopState n)) := by
    rw [hnone]
    split
    · rw [ho.choice, randomNeighbors_pick]
      cases randomNeighbors k (o.choice k) with
      | error e => exact rfl
      | ok a => exact topPick_mk (adjLists_pick π a)
    · exact ht
  generalize (if (st && t.neighbor.isNone) || !st then
        match randomNeighbors k (o.choice k) with
        | .error e => .error e
        | .ok a => .ok ({ neighbor := some (adjLists a), ndim := 1 } : TopState n)
      else .ok t : Except Err (TopState n)) = q at hq
  generalize (if (st && t'.neighbor.isNone) || !st then
        match randomNeighbors k (o'.choice k) with
        | .error e => .error e
        | .ok a => .ok ({ neighbor := some (adjLists a), ndim := 1 } : TopState n)
      else .ok t' : Except Err (TopState n)) = q' at hq
  cases q with
  | error e => rw [exRel_error hq]; exact ⟨ht, rfl⟩
  | ok t1 =>
    obtain ⟨t1', rfl, h1⟩ := exRel_ok hq
    dsimp only
    have h2 := h1.2
    cases ha : t1.neighbor with
    | none =>
      cases hb : t1'.neighbor with
      | none => exact ⟨h1, rfl⟩
      | some _ => rw [ha, hb] at h2; exact h2.elim
    | some _ =>
      cases hb : t1'.neighbor with
      | none => rw [ha, hb] at h2; exact h2.elim
      | some _ =>
        rw [ha, hb] at h2
        exact ⟨h1, nbrBest_pick h hu h2⟩

theorem computeGbest_pick (h : SwarmPick π s s') (hu : Untied s) (ho : OraclePick π o o')
    {t t' : TopState n} (ht : TopPick π t t') (kind : TopKind) (args : TopArgs) :
    AnsPick π (computeGbest kind args o t s) (computeGbest kind args o' t' s') := by
  unfold computeGbest
  cases kind with
  | star => exact starGbest_pick h hu ht
  | ring st =>
    dsimp only
    split
    · exact ringGbest_pick h hu ho ht st _ _
    · exact ⟨ht, rfl⟩
  | vonNeumann =>
    dsimp only
    split
    · exact ringGbest_pick h hu ho ht true _ _
    · exact ⟨ht, rfl⟩
  | pyramid st => exact pyramidGbest_pick h hu ho ht st
  | random st =>
    dsimp only
    split
    · exact randomGbest_pick h hu ho ht st _
    · exact ⟨ht, rfl⟩

end random

end PySwarms
