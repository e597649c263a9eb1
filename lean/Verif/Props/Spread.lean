import Verif.Props.Prefix
import Verif.Lemmas.Cover

/-!
# Information spreads by one neighbourhood per iteration (C87)
-/

set_option linter.unusedSectionVars false
set_option linter.unusedSimpArgs false

namespace PySwarms

variable {n d : Nat} {K : Type} [Field K] [LinearOrder K] [IsStrictOrderedRing K] [Transc K]
  [FloorRing K]

/-! ### Specification -/

/-- The cost of every particle is a function of its own position: `φ t i x` is the cost of particle
`i` at position `x` in evaluation `t`.  (The objective may also raise.) -/
def RowCost (ev : Nat → Mat n d K → Except Err (Costs n K)) (φ : Nat → Fin n → Vec d K → XR K) :
    Prop :=
  ∀ t x c, ev t x = .ok c → ∀ i, c i = φ t i (x i)

/-- `k` can be reached from `j` by at most `t` steps from a particle to one of its neighbours. -/
def Hops (nbr : Fin n → List (Fin n)) : Nat → Fin n → Fin n → Prop
  | 0, j, k => k = j
  | t + 1, j, k => Hops nbr t j k ∨ ∃ i ∈ nbr j, Hops nbr t i k

/-- The topology computes its neighbour lists once: Ring, Pyramid and Random with `static=True`,
VonNeumann. -/
def TopKind.listsOnce : TopKind → Prop
  | .ring st => st = true
  | .pyramid st => st = true
  | .random st => st = true
  | .vonNeumann => True
  | .star => False

/-! ### Rows of the handlers -/

/-- The row of a memory. -/
def memRow (mem : Option (Mat n d K)) (j : Fin n) : Option (Vec d K) := mem.map fun x => x j

theorem isLow_row {b : Bounds d K} {x x' : Mat n d K} {i : Fin n} (h : x i = x' i) (j : Fin d) :
    isLow b x i j = isLow b x' i j := by unfold isLow; rw [h]

theorem isHigh_row {b : Bounds d K} {x x' : Mat n d K} {i : Fin n} (h : x i = x' i) (j : Fin d) :
    isHigh b x i j = isHigh b x' i j := by unfold isHigh; rw [h]

theorem rowLow_row {b : Bounds d K} {x x' : Mat n d K} {i : Fin n} (h : x i = x' i) :
    rowLow b x i = rowLow b x' i := by unfold rowLow isLow; rw [h]

theorem rowHigh_row {b : Bounds d K} {x x' : Mat n d K} {i : Fin n} (h : x i = x' i) :
    rowHigh b x i = rowHigh b x' i := by unfold rowHigh isHigh; rw [h]

theorem reflectPass_row {b : Bounds d K} {x x' : Mat n d K} {i : Fin n} (h : x i = x' i) :
    reflectPass b x i = reflectPass b x' i := by
  funext j
  rw [reflectPass_apply, reflectPass_apply, h]

theorem bhReflective_row {b : Bounds d K} {x x' y y' : Mat n d K} {m m' : Nat} {i : Fin n}
    (h : x i = x' i) (hy : bhReflective b m x = .ok y) (hy' : bhReflective b m' x' = .ok y') :
    y i = y' i := by
  induction m generalizing x x' m' with
  | zero =>
    unfold bhReflective at hy
    split at hy
    · cases hy
    · next hn =>
      cases hy
      have hin := (anyOut_false_iff b _).1 (by simpa using hn)
      funext j
      have := bhReflective_coord hy' i j (by rw [← h]; exact (hin i j).1)
        (by rw [← h]; exact (hin i j).2)
      rw [this, h]
  | succ m ih =>
    unfold bhReflective at hy
    split at hy
    · cases m' with
      | zero =>
        unfold bhReflective at hy'
        split at hy'
        · cases hy'
        · next hn =>
          cases hy'
          have hin := (anyOut_false_iff b _).1 (by simpa using hn)
          funext j
          have hp : reflectPass b x i j = y' i j := by
            rw [reflectPass_row h, reflectPass_apply, if_neg (not_lt.2 (hin i j).2),
              if_neg (not_lt.2 (hin i j).1)]
          rw [bhReflective_coord hy i j (by rw [hp]; exact (hin i j).1)
            (by rw [hp]; exact (hin i j).2), hp]
      | succ m' =>
        unfold bhReflective at hy'
        split at hy'
        · exact ih (reflectPass_row h) hy hy'
        · next hn =>
          cases hy'
          have hin := (anyOut_false_iff b _).1 (by simpa using hn)
          funext j
          have hp : reflectPass b x i j = y' i j := by
            rw [reflectPass_row h, reflectPass_apply, if_neg (not_lt.2 (hin i j).2),
              if_neg (not_lt.2 (hin i j).1)]
          rw [bhReflective_coord hy i j (by rw [hp]; exact (hin i j).1)
            (by rw [hp]; exact (hin i j).2), hp]
    · next hn =>
      cases hy
      have hin := (anyOut_false_iff b _).1 (by simpa using hn)
      funext j
      have := bhReflective_coord hy' i j (by rw [← h]; exact (hin i j).1)
        (by rw [← h]; exact (hin i j).2)
      rw [this, h]

theorem shrinkSigma_row {b : Bounds d K} {m m' x x' : Mat n d K} {i : Fin n} (h : x i = x' i)
    (hm : m i = m' i) : shrinkSigma b m x i = shrinkSigma b m' x' i := by
  funext j
  unfold shrinkSigma isLow isHigh
  rw [h, hm]

/-- Row `i` of the result of a boundary handler depends only on row `i` of its inputs. -/
theorem bhCall_row {st : String} {mem mem' m1 m1' : Option (Mat n d K)} {b : Bounds d K}
    {r : BHDraw d K} {x x' y y' : Mat n d K} {i : Fin n} (h : x i = x' i)
    (hm : memRow mem i = memRow mem' i) (hy : bhCall st mem b r x = (m1, .ok y))
    (hy' : bhCall st mem' b r x' = (m1', .ok y')) : y i = y' i ∧ memRow m1 i = memRow m1' i := by
  unfold bhCall at hy hy'
  split at hy
  · next hs =>
    rw [if_pos hs] at hy'
    cases hy; cases hy'
    refine ⟨?_, hm⟩
    funext j
    unfold bhNearest isLow isHigh
    rw [h]
  next hs =>
  rw [if_neg hs] at hy'
  split at hy
  · next hs =>
    rw [if_pos hs] at hy'
    simp only [Prod.mk.injEq] at hy hy'
    rw [← hy.1, ← hy'.1]
    exact ⟨bhReflective_row h hy.2 hy'.2, hm⟩
  next hs =>
  rw [if_neg hs] at hy'
  split at hy
  · next hs =>
    rw [if_pos hs] at hy'
    cases mem with
    | none =>
      cases mem' with
      | none => cases hy; cases hy'; exact ⟨h, by simp [memRow, h]⟩
      | some m' => simp [memRow] at hm
    | some m =>
      cases mem' with
      | none => simp [memRow] at hm
      | some m' =>
        have hm' : m i = m' i := by simpa [memRow] using hm
        unfold bhShrink at hy hy'
        dsimp only at hy hy'
        split at hy
        · cases hy
        · split at hy'
          · cases hy'
          · split at hy
            · cases hy
            · next hd =>
              rw [if_neg hd] at hy'
              cases hy; cases hy'
              have : (fun j => if (rowLow b x i || rowHigh b x i) = true then
                  match rowMin (shrinkSigma b m x i) with
                  | some s => m i j + s * (x i j - m i j)
                  | none => x i j else x i j) =
                (fun j => if (rowLow b x' i || rowHigh b x' i) = true then
                  match rowMin (shrinkSigma b m' x' i) with
                  | some s => m' i j + s * (x' i j - m' i j)
                  | none => x' i j else x' i j) := by
                rw [rowLow_row h, rowHigh_row h, shrinkSigma_row h hm', h, hm']
              exact ⟨this, congrArg some this⟩
  next hs =>
  rw [if_neg hs] at hy'
  split at hy
  · next hs =>
    rw [if_pos hs] at hy'
    cases hy; cases hy'
    refine ⟨?_, hm⟩
    funext j
    unfold bhRandom
    rw [rowLow_row h, rowHigh_row h, h]
  next hs =>
  rw [if_neg hs] at hy'
  split at hy
  · next hs =>
    rw [if_pos hs] at hy'
    cases mem with
    | none =>
      cases mem' with
      | none => cases hy; cases hy'; exact ⟨h, by simp [memRow, h]⟩
      | some m' => simp [memRow] at hm
    | some m =>
      cases mem' with
      | none => simp [memRow] at hm
      | some m' =>
        have hm' : m i = m' i := by simpa [memRow] using hm
        unfold bhIntermediate at hy hy'
        cases hy; cases hy'
        have : (fun j => if isHigh b x i j = true then (1 / 2) * (m i j + b.2 j) else
            if isLow b x i j = true then (1 / 2) * (m i j + b.1 j) else x i j) =
          (fun j => if isHigh b x' i j = true then (1 / 2) * (m' i j + b.2 j) else
            if isLow b x' i j = true then (1 / 2) * (m' i j + b.1 j) else x' i j) := by
          funext j
          rw [isLow_row h, isHigh_row h, h, hm']
        exact ⟨this, congrArg some this⟩
  next hs =>
  rw [if_neg hs] at hy'
  split at hy
  · next hs =>
    rw [if_pos hs] at hy'
    simp only [Prod.mk.injEq] at hy hy'
    obtain ⟨e1, e2⟩ := hy
    obtain ⟨e1', e2'⟩ := hy'
    subst e1 e1'
    refine ⟨?_, hm⟩
    unfold bhPeriodic at e2 e2'
    split at e2
    · cases e2
    · split at e2'
      · cases e2'
      · cases e2; cases e2'
        funext j
        dsimp only
        rw [isLow_row h, isHigh_row h, h]
  · cases hy

theorem clampOpt_row {c : Option (Clamp d K)} {v v' : Mat n d K} {i : Fin n} (h : v i = v' i) :
    clampOpt c v i = clampOpt c v' i := by
  unfold clampOpt
  cases c with
  | none => exact h
  | some c => funext j; dsimp only; unfold applyClamp; rw [h]

/-- Row `i` of the result of a velocity handler depends only on row `i` of its inputs. -/
theorem vhCall_row {st : String} {mem mem' m1 m1' : Option (Mat n d K)} {c : Option (Clamp d K)}
    {b : Option (Bounds d K)} {x x' v v' y y' : Mat n d K} {i : Fin n} (h : x i = x' i)
    (hv : v i = v' i) (hm : memRow mem i = memRow mem' i)
    (hy : vhCall st mem c { position := some x, bounds := some b } v = (m1, .ok y))
    (hy' : vhCall st mem' c { position := some x', bounds := some b } v' = (m1', .ok y')) :
    y i = y' i ∧ memRow m1 i = memRow m1' i := by
  unfold vhCall at hy hy'
  split at hy
  · next hs =>
    rw [if_pos hs] at hy'
    cases hy; cases hy'
    exact ⟨clampOpt_row hv, hm⟩
  next hs =>
  rw [if_neg hs] at hy'
  split at hy
  · next hs =>
    rw [if_pos hs] at hy'
    cases mem with
    | none =>
      cases mem' with
      | none => cases hy; cases hy'; exact ⟨hv, by simp [memRow, h]⟩
      | some m' => simp [memRow] at hm
    | some m =>
      cases mem' with
      | none => simp [memRow] at hm
      | some m' =>
        have hm' : m i = m' i := by simpa [memRow] using hm
        cases hy; cases hy'
        exact ⟨clampOpt_row (by rw [h, hm']), by simp [memRow, h]⟩
  next hs =>
  rw [if_neg hs] at hy'
  split at hy
  · next hs =>
    rw [if_pos hs] at hy'
    cases b with
    | none => cases hy
    | some b =>
      cases hy; cases hy'
      refine ⟨clampOpt_row ?_, hm⟩
      dsimp only
      rw [rowLow_row h, rowHigh_row h, hv]
  next hs =>
  rw [if_neg hs] at hy'
  split at hy
  · next hs =>
    rw [if_pos hs] at hy'
    cases b with
    | none => cases hy
    | some b =>
      cases hy; cases hy'
      refine ⟨?_, hm⟩
      dsimp only
      rw [rowLow_row h, rowHigh_row h, hv]
  · cases hy

/-! ### Rows of `compute_gbest` -/

theorem argminOver_fold {ι : Type} (c c' : ι → XR K) (l : List ι) (acc : Option ι)
    (h : ∀ i ∈ l, c i = c' i) (ha : ∀ i, acc = some i → c i = c' i) :
    l.foldl (fun acc i => match acc with
      | none => some i
      | some j => if npBetter (c i) (c j) then some i else some j) acc =
    l.foldl (fun acc i => match acc with
      | none => some i
      | some j => if npBetter (c' i) (c' j) then some i else some j) acc := by
  induction l generalizing acc with
  | nil => rfl
  | cons a l ih =>
    simp only [List.foldl_cons]
    have h1 := h a List.mem_cons_self
    have h2 : ∀ i ∈ l, c i = c' i := fun i hi => h i (List.mem_cons_of_mem _ hi)
    cases acc with
    | none => exact ih _ h2 (fun i hi => by cases hi; exact h1)
    | some j =>
      have hj := ha j rfl
      dsimp only
      rw [h1, hj]
      refine ih _ h2 (fun i hi => ?_)
      split at hi <;> cases hi
      · exact h1
      · exact hj

theorem argminOver_congr {ι : Type} {c c' : ι → XR K} {l : List ι} (h : ∀ i ∈ l, c i = c' i) :
    argminOver c l = argminOver c' l :=
  argminOver_fold c c' l none h (fun _ hi => by cases hi)

theorem argminOver_fold_mem {ι : Type} (c : ι → XR K) (l : List ι) (acc : Option ι) (i : ι)
    (h : l.foldl (fun acc i => match acc with
      | none => some i
      | some j => if npBetter (c i) (c j) then some i else some j) acc = some i) :
    i ∈ l ∨ acc = some i := by
  induction l generalizing acc with
  | nil => exact .inr h
  | cons a l ih =>
    simp only [List.foldl_cons] at h
    rcases ih _ h with h | h
    · exact .inl (List.mem_cons_of_mem _ h)
    · cases acc with
      | none => cases h; exact .inl List.mem_cons_self
      | some j =>
        dsimp only at h
        split at h
        · cases h; exact .inl List.mem_cons_self
        · exact .inr h

theorem argminOver_in {ι : Type} {c : ι → XR K} {l : List ι} {i : ι} (h : argminOver c l = some i) :
    i ∈ l := by
  rcases argminOver_fold_mem c l none i h with h | h
  · exact h
  · cases h

theorem gatherBest_row {bn bn' : Fin n → Fin n} {s s' : Swarm n d K} {g g' : GBest n d K}
    (h : gatherBest bn s = .ok g) (h' : gatherBest bn' s' = .ok g') (j : Fin n)
    (hj : s.pbestPos (bn j) = s'.pbestPos (bn' j)) (x x' : Mat n d K) :
    g.1.row x j = g'.1.row x' j := by
  unfold gatherBest at h h'
  split at h
  · cases h
  · split at h'
    · cases h'
    · cases h; cases h'; exact hj

theorem nbrBest_row {nbr : Fin n → List (Fin n)} {s s' : Swarm n d K} {g g' : GBest n d K}
    (h : nbrBest nbr s = .ok g) (h' : nbrBest nbr s' = .ok g') (j : Fin n)
    (hj : ∀ k ∈ nbr j, s.pbestPos k = s'.pbestPos k ∧ s.pbestCost k = s'.pbestCost k)
    (x x' : Mat n d K) : g.1.row x j = g'.1.row x' j := by
  unfold nbrBest at h h'
  split at h
  · cases h
  · next hn =>
    split at h'
    · cases h'
    · have he : bestNeighbor nbr s.pbestCost j = bestNeighbor nbr s'.pbestCost j :=
        argminOver_congr fun k hk => (hj k hk).2
      refine gatherBest_row h h' j ?_ x x'
      rw [← he]
      cases hb : bestNeighbor nbr s.pbestCost j with
      | none =>
        exfalso
        apply hn
        rw [List.any_eq_true]
        exact ⟨j, List.mem_finRange j, by rw [hb]; rfl⟩
      | some k => exact (hj k (argminOver_in hb)).1

/-- The attraction point of particle `j` depends only on the personal bests of `j` and its
neighbours. -/
theorem computeGbest_row {kind : TopKind} (hk : kind ≠ .star) {args : TopArgs} {o : Oracle n d K}
    {t t' t1 : TopState n} {s s' : Swarm n d K} {g g' : GBest n d K} {nbr : Fin n → List (Fin n)}
    (h : computeGbest kind args o t s = (t1, .ok g))
    (h' : computeGbest kind args o t' s' = (t1, .ok g'))
    (hn : t1.neighbor = some nbr) (j : Fin n)
    (hj : ∀ k, k = j ∨ k ∈ nbr j → s.pbestPos k = s'.pbestPos k ∧ s.pbestCost k = s'.pbestCost k)
    (x x' : Mat n d K) : g.1.row x j = g'.1.row x' j := by
  have hnb : ∀ {nbr1 nbr2 : Fin n → List (Fin n)}, t1.neighbor = some nbr1 →
      t1.neighbor = some nbr2 → nbrBest nbr1 s = .ok g → nbrBest nbr2 s' = .ok g' →
      g.1.row x j = g'.1.row x' j := by
    intro nbr1 nbr2 a b h2 h3
    rw [hn] at a b
    cases a; cases b
    exact nbrBest_row h2 h3 j (fun k hk => hj k (.inr hk)) x x'
  have hring : ∀ st k p, ringGbest st k p o t s = (t1, .ok g) →
      ringGbest st k p o t' s' = (t1, .ok g') → g.1.row x j = g'.1.row x' j := by
    intro st k p hr hr'
    obtain ⟨u, -, ⟨hk1, -, -, h2⟩ | ⟨hk1, e, nbr1, h1, h2⟩⟩ := ringGbest_cases hr
    · obtain ⟨u', -, ⟨-, -, -, h3⟩ | ⟨hk2, -⟩⟩ := ringGbest_cases hr'
      · exact gatherBest_row h2 h3 j (hj j (.inl rfl)).1 x x'
      · exact absurd hk1 hk2
    · obtain ⟨u', -, ⟨hk2, -⟩ | ⟨-, e', nbr2, h4, h5⟩⟩ := ringGbest_cases hr'
      · exact absurd hk2 hk1
      · subst e e'; exact hnb h1 h4 h2 h5
  cases kind with
  | star => exact absurd rfl hk
  | ring st =>
    simp only [computeGbest] at h h'
    split at h
    · next k p hk' hp' =>
      rw [hk', hp'] at h'
      exact hring _ _ _ h h'
    · cases h
  | vonNeumann =>
    simp only [computeGbest] at h h'
    split at h
    · next k p hk' hp' =>
      rw [hk', hp'] at h'
      exact hring _ _ _ h h'
    · cases h
  | pyramid st =>
    simp only [computeGbest] at h h'
    rcases pyramidGbest_cases h with ⟨hlt, e, i, hi, rfl⟩ | ⟨hlt, -, nbr1, h1, h2⟩
    · rcases pyramidGbest_cases h' with ⟨-, -, i', hi', rfl⟩ | ⟨hge, -⟩
      · have hall : nbr = allNeighbors n := by
          rw [e] at hn; exact (Option.some.inj hn).symm
        have hc : s.pbestCost = s'.pbestCost := by
          funext k
          exact (hj k (.inr (by rw [hall]; simp [allNeighbors]))).2
        rw [hc, hi'] at hi
        cases hi
        exact (hj _ (.inr (by rw [hall]; simp [allNeighbors]))).1
      · omega
    · rcases pyramidGbest_cases h' with ⟨hlt', -⟩ | ⟨-, -, nbr2, h4, h5⟩
      · omega
      · exact hnb h1 h4 h2 h5
  | random st =>
    simp only [computeGbest] at h h'
    split at h
    · next k hk' =>
      rw [hk'] at h'
      obtain ⟨-, nbr1, h1, h2⟩ := randomGbest_cases h
      obtain ⟨-, nbr2, h3, h4⟩ := randomGbest_cases h'
      exact hnb h1 h3 h2 h4
    · cases h

/-! ### The neighbour lists stay -/

/-- The topology object has its final neighbour lists. -/
def TopSettled (kind : TopKind) (d : Nat) (t : TopState n) : Prop :=
  t.neighbor.isSome = true ∧ (∀ st, kind = .pyramid st → n < d + 1 → t.neighbor = some (allNeighbors n))

theorem computeGbest_keeps {kind : TopKind} (hk : kind.listsOnce) (args : TopArgs)
    (o : Oracle n d K) {t : TopState n} (s : Swarm n d K) (ht : TopSettled kind d t) :
    (computeGbest kind args o t s).1.neighbor = t.neighbor := by
  obtain ⟨h1, h2⟩ := ht
  have hno : t.neighbor.isNone = false := by
    cases h : t.neighbor with
    | none => rw [h] at h1; cases h1
    | some _ => rfl
  have hring : ∀ k p, (ringGbest true k p o t s).1.neighbor = t.neighbor := by
    intro k p
    unfold ringGbest
    simp only [hno, Bool.and_false, Bool.not_true, Bool.or_self, Bool.false_eq_true, if_false]
    split
    · split <;> rfl
    · split <;> rfl
  cases kind with
  | star => exact hk.elim
  | ring st =>
    cases (show st = true from hk)
    simp only [computeGbest]
    split
    · exact hring _ _
    · rfl
  | vonNeumann =>
    simp only [computeGbest]
    split
    · exact hring _ _
    · rfl
  | pyramid st =>
    cases (show st = true from hk)
    simp only [computeGbest]
    unfold pyramidGbest
    split
    · next hlt =>
      rw [h2 true rfl hlt]
      dsimp only
      split <;> rfl
    · simp only [hno, Bool.and_false, Bool.not_true, Bool.or_self, Bool.false_eq_true, if_false]
      split <;> rfl
  | random st =>
    cases (show st = true from hk)
    simp only [computeGbest]
    split
    · unfold randomGbest
      simp only [hno, Bool.and_false, Bool.not_true, Bool.or_self, Bool.false_eq_true, if_false]
      split <;> rfl
    · rfl

/-- A successful call settles the lists, and two calls on swarms at the same positions agree. -/
theorem computeGbest_settles {kind : TopKind} (hk : kind.listsOnce) {args : TopArgs}
    {o : Oracle n d K} {t t1 t1' : TopState n} {s s' : Swarm n d K} {g g' : GBest n d K}
    (hpos : t.neighbor = none → s.position = s'.position)
    (h : computeGbest kind args o t s = (t1, .ok g))
    (h' : computeGbest kind args o t s' = (t1', .ok g')) :
    t1 = t1' ∧ TopSettled kind d t1 := by
  have hpos' : t.neighbor.isNone = true → s.position = s'.position := by
    intro h; exact hpos (Option.isNone_iff_eq_none.1 h)
  have hring : ∀ k p, ringGbest true k p o t s = (t1, .ok g) →
      ringGbest true k p o t s' = (t1', .ok g') → t1 = t1' ∧ t1.neighbor.isSome = true := by
    intro k p a a'
    unfold ringGbest at a a'
    have hq : (if (true && t.neighbor.isNone || !true) = true then ringQuery k p o s.position
        else .ok t) = (if (true && t.neighbor.isNone || !true) = true then
        ringQuery k p o s'.position else .ok t) := by
      split
      · next hc => rw [hpos' (by simpa using hc)]
      · rfl
    have hsome : ∀ u, (if (true && t.neighbor.isNone || !true) = true then
        ringQuery k p o s.position else .ok t) = .ok u → u.neighbor.isSome = true := by
      intro u hu
      split at hu
      · unfold ringQuery at hu
        split at hu
        · cases hu
        · split at hu
          · cases hu
          · cases hu; rfl
      · next hc =>
        cases hu
        cases ht : t.neighbor with
        | none => rw [ht] at hc; simp at hc
        | some _ => rfl
    dsimp only at a a'
    rw [← hq] at a'
    split at a
    · cases a
    · next u hu =>
      rw [hu] at a'
      dsimp only at a'
      have hu' := hsome u hu
      split at a
      · next hk1 =>
        rw [if_pos hk1] at a'
        split at a
        · cases a
        · next hd =>
          rw [if_neg hd] at a'
          simp only [Prod.mk.injEq] at a a'
          rw [← a.1, ← a'.1]
          exact ⟨rfl, hu'⟩
      · next hk1 =>
        rw [if_neg hk1] at a'
        split at a
        · cases a
        · next nbr hnb =>
          rw [hnb] at a'
          simp only [Prod.mk.injEq] at a a'
          rw [← a.1, ← a'.1]
          exact ⟨rfl, hu'⟩
  cases kind with
  | star => exact hk.elim
  | ring st =>
    cases (show st = true from hk)
    simp only [computeGbest] at h h'
    split at h
    · next k p hk' hp' =>
      rw [hk', hp'] at h'
      obtain ⟨a, b⟩ := hring _ _ h h'
      exact ⟨a, b, fun _ h => by cases h⟩
    · cases h
  | vonNeumann =>
    simp only [computeGbest] at h h'
    split at h
    · next k p hk' hp' =>
      rw [hk', hp'] at h'
      obtain ⟨a, b⟩ := hring _ _ h h'
      exact ⟨a, b, fun _ h => by cases h⟩
    · cases h
  | pyramid st =>
    cases (show st = true from hk)
    simp only [computeGbest] at h h'
    unfold pyramidGbest at h h'
    split at h
    · next hlt =>
      rw [if_pos hlt] at h'
      dsimp only at h h'
      split at h
      · cases h
      · split at h'
        · cases h'
        · simp only [Prod.mk.injEq] at h h'
          rw [← h.1, ← h'.1]
          exact ⟨rfl, rfl, fun _ _ _ => rfl⟩
    · next hlt =>
      rw [if_neg hlt] at h'
      have fin : ∀ u : TopState n,
          (match u.neighbor with
            | none => (u, .error .typeError)
            | some nbr => (u, nbrBest nbr s)) = (t1, Except.ok g) →
          (match u.neighbor with
            | none => (u, .error .typeError)
            | some nbr => (u, nbrBest nbr s')) = (t1', Except.ok g') →
          t1 = t1' ∧ TopSettled (.pyramid true) d t1 := by
        intro u a a'
        split at a
        · cases a
        · next nbr hnb =>
          rw [hnb] at a'
          simp only [Prod.mk.injEq] at a a'
          rw [← a.1, ← a'.1]
          exact ⟨rfl, by rw [hnb]; rfl, fun _ _ h => absurd h hlt⟩
      dsimp only at h h'
      cases hno : t.neighbor.isNone with
      | false =>
        simp only [hno, Bool.and_false, Bool.not_true, Bool.or_self, Bool.false_eq_true,
          if_false] at h h'
        exact fin t h h'
      | true =>
        simp only [hno, Bool.and_self, Bool.true_or, if_true] at h h'
        rw [← hpos' hno] at h'
        cases hd : o.delaunay s.position with
        | error e => rw [hd] at h; cases h
        | ok nbr =>
          rw [hd] at h h'
          exact fin { neighbor := some nbr, ndim := 1 } h h'
  | random st =>
    cases (show st = true from hk)
    simp only [computeGbest] at h h'
    split at h
    · next k hk' =>
      rw [hk'] at h'
      unfold randomGbest at h h'
      dsimp only at h h'
      split at h
      · cases h
      · next u hu =>
        rw [hu] at h'
        dsimp only at h'
        split at h
        · cases h
        · next nbr hnb =>
          rw [hnb] at h'
          simp only [Prod.mk.injEq] at h h'
          rw [← h.1, ← h'.1]
          exact ⟨rfl, by rw [hnb]; rfl, fun _ h => by cases h⟩
    · cases h

/-! ### One iteration -/

/-- Particle `j` is in the same situation in both optimizers. -/
structure RowEq (j : Fin n) (s s' : Opt n d K) : Prop where
  position : s.swarm.position j = s'.swarm.position j
  velocity : s.swarm.velocity j = s'.swarm.velocity j
  pbestPos : s.swarm.pbestPos j = s'.swarm.pbestPos j
  pbestCost : s.swarm.pbestCost j = s'.swarm.pbestCost j
  vhMem : memRow s.vhMem j = memRow s'.vhMem j
  bhMem : memRow s.bhMem j = memRow s'.bhMem j

theorem recordEval_row {c c' : Costs n K} {s s' : Opt n d K} {j : Fin n} (h : RowEq j s s')
    (hc : c j = c' j) : RowEq j (recordEval c s) (recordEval c' s') := by
  refine ⟨h.1, h.2, ?_, ?_, h.5, h.6⟩
  · rw [recordEval_pbestPos, recordEval_pbestPos, hc, h.pbestCost, h.pbestPos, h.position]
  · rw [recordEval_pbestCost, recordEval_pbestCost, hc, h.pbestCost]

theorem moveSwarm_row {cfg : Config n d K} (hb : cfg.kind ≠ .binary) {r : Draw n d K}
    {iters i : Nat} {s s' s1 s1' : Opt n d K} {j : Fin n} (h : RowEq j s s')
    (hbest : ∀ x x', s.swarm.bestPos.row x j = s'.swarm.bestPos.row x' j)
    (hm : moveSwarm cfg r iters i s = (s1, .ok ()))
    (hm' : moveSwarm cfg r iters i s' = (s1', .ok ())) : RowEq j s1 s1' := by
  have hc := moveSwarm_cases cfg r iters i s
  have hc' := moveSwarm_cases cfg r iters i s'
  rw [hm] at hc
  rw [hm'] at hc'
  have hopt : ∀ a b : Swarm n d K, callOptions cfg iters i r a = callOptions cfg iters i r b := by
    intro a b
    unfold callOptions
    cases hk : cfg.kind with
    | binary => exact absurd hk hb
    | _ => rfl
  cases hc with
  | ok o vm v bm p ho hv hp =>
    cases hc' with
    | ok o' vm' v' bm' p' ho' hv' hp' =>
      rw [hopt _ s.swarm, ho] at ho'
      cases ho'
      obtain ⟨c1, c2, w, e1, e2, e3, e4⟩ := computeVelocity_ok hv
      obtain ⟨c1', c2', w', f1, f2, f3, f4⟩ := computeVelocity_ok hv'
      rw [e1] at f1; rw [e2] at f2; rw [e3] at f3
      cases f1; cases f2; cases f3
      have ht : tempVelocity c1 c2 w r.r1 r.r2 { s.swarm with options := o } j =
          tempVelocity c1 c2 w r.r1 r.r2 { s'.swarm with options := o } j := by
        funext k
        unfold tempVelocity
        dsimp only
        rw [hbest _ s'.swarm.position, h.position, h.velocity, h.pbestPos]
      obtain ⟨hvr, hvm⟩ := vhCall_row h.position ht h.vhMem e4 f4
      have hpr : p j = p' j ∧ memRow bm j = memRow bm' j := by
        unfold callPosition at hp hp'
        have key : computePosition { s.swarm with options := o, velocity := v } cfg.bounds
              cfg.bhStrategy s.bhMem r.bh = (bm, .ok p) →
            computePosition { s'.swarm with options := o, velocity := v' } cfg.bounds
              cfg.bhStrategy s'.bhMem r.bh = (bm', .ok p') →
            p j = p' j ∧ memRow bm j = memRow bm' j := by
          intro q q'
          unfold computePosition at q q'
          have hx : (fun k => s.swarm.position j k + v j k) =
              fun k => s'.swarm.position j k + v' j k := by rw [h.position, hvr]
          cases hbd : cfg.bounds with
          | none =>
            rw [hbd] at q q'
            cases q; cases q'
            exact ⟨hx, h.bhMem⟩
          | some b =>
            rw [hbd] at q q'
            exact bhCall_row hx h.bhMem q q'
        cases hk : cfg.kind with
        | binary => exact absurd hk hb
        | globalBest => rw [hk] at hp hp'; exact key hp hp'
        | localBest _ => rw [hk] at hp hp'; exact key hp hp'
        | general _ => rw [hk] at hp hp'; exact key hp hp'
      exact ⟨hpr.1, hvr, h.pbestPos, h.pbestCost, hvm, hpr.2⟩

/-- One continued iteration of both runs. -/
theorem iterate_row {cfg : Config n d K} (hk : cfg.kind.top.listsOnce)
    {ev ev' : Mat n d K → Except Err (Costs n K)} {r : Draw n d K} {iters i : Nat}
    {q q' q1 q1' : List Bool} {s s' s1 s1' : Opt n d K} (htop : s.top = s'.top)
    (hpos : s.top.neighbor = none → s.swarm.position = s'.swarm.position)
    (hi : iterate cfg ev r iters i q s = (s1, .ok (.continue q1)))
    (hi' : iterate cfg ev' r iters i q' s' = (s1', .ok (.continue q1'))) :
    s1.top = s1'.top ∧ TopSettled cfg.kind.top d s1.top ∧
      s1.posHistory = s.posHistory ++ [s.swarm.position] ∧
      s1.velocityHistory = s.velocityHistory ++ [s.swarm.velocity] ∧
      ∀ nbr, s1.top.neighbor = some nbr → ∀ j,
        (∀ k, k = j ∨ k ∈ nbr j → RowEq k s s' ∧ ∀ c c', ev s.swarm.position = .ok c →
          ev' s'.swarm.position = .ok c' → c k = c' k) → RowEq j s1 s1' := by
  have hc := iterate_cases cfg ev r iters i q s
  have hc' := iterate_cases cfg ev' r iters i q' s'
  rw [hi] at hc
  rw [hi'] at hc'
  have hb : cfg.kind ≠ .binary := by
    intro h
    rw [h] at hk
    exact Bool.false_ne_true hk
  cases hc with
  | moved c t g _ he hg hns hm =>
    cases hc' with
    | moved c' t' g' _ he' hg' hns' hm' =>
      have hf := moveSwarm_frame cfg r iters i (recordBest t g (recordEval c s))
      rw [hm] at hf
      obtain ⟨-, -, -, -, -, ft, -, -, -, fp, fv, -⟩ := hf
      have hf' := moveSwarm_frame cfg r iters i (recordBest t' g' (recordEval c' s'))
      rw [hm'] at hf'
      obtain ⟨-, -, -, -, -, ft', -⟩ := hf'
      dsimp only at ft ft' fp fv
      obtain ⟨args, ha, -⟩ := callGbest_eq cfg r.oracle (recordEval c s).top (recordEval c s).swarm
      have hsame : ∀ sw, callGbest cfg r.oracle s.top sw = computeGbest cfg.kind.top
          (match cfg.kind with
            | .globalBest => {}
            | .localBest _ => { k := cfg.args.k, p := cfg.args.p }
            | .general _ => cfg.args
            | .binary => { k := cfg.args.k, p := cfg.args.p }) r.oracle s.top sw := by
        intro sw
        unfold callGbest Kind.top
        cases cfg.kind <;> rfl
      have hs0 : (recordEval c s).top = s.top := rfl
      have hs0' : (recordEval c' s').top = s.top := htop.symm
      rw [hs0, hsame] at hg
      rw [hs0', hsame] at hg'
      obtain ⟨e1, e2⟩ := computeGbest_settles (s := (recordEval c s).swarm)
        (s' := (recordEval c' s').swarm) hk hpos hg hg'
      subst e1
      have htt : s1.top = t := ft
      have htt' : s1'.top = t := ft'
      refine ⟨htt.trans htt'.symm, by rw [htt]; exact e2, ?_, ?_, ?_⟩
      · rw [fp]; rfl
      · rw [fv]; rfl
      · intro nbr hn j hj
        rw [htt] at hn
        have hrow : ∀ k, k = j ∨ k ∈ nbr j → RowEq k (recordEval c s) (recordEval c' s') :=
          fun k hk => recordEval_row (hj k hk).1 ((hj k hk).2 c c' he he')
        have hgr := computeGbest_row (by intro h; rw [h] at hk; exact hk) hg hg' hn j
          (fun k hk => ⟨(hrow k hk).pbestPos, (hrow k hk).pbestCost⟩)
        have hj0 := hrow j (.inl rfl)
        exact moveSwarm_row hb (s := recordBest t g (recordEval c s))
          (s' := recordBest t g' (recordEval c' s'))
          ⟨hj0.1, hj0.2, hj0.3, hj0.4, hj0.5, hj0.6⟩ hgr hm hm'

/-- The lists do not change any more during the loop. -/
theorem loop_keeps {cfg : Config n d K} (hk : cfg.kind.top.listsOnce)
    (ev : Nat → Mat n d K → Except Err (Costs n K)) (env : Nat → Draw n d K) (iters m i : Nat)
    (q : List Bool) (s : Opt n d K) (hs : TopSettled cfg.kind.top d s.top) :
    (loop cfg ev env iters m i q s).1.top.neighbor = s.top.neighbor := by
  have step : ∀ i q (a : Opt n d K), a.top.neighbor = s.top.neighbor →
      (iterate cfg (ev i) (env i) iters i q a).1.top.neighbor = s.top.neighbor := by
    intro i q a ha
    have ht : TopSettled cfg.kind.top d a.top := by
      unfold TopSettled at hs ⊢; rw [ha]; exact hs
    have key : ∀ sw t o, callGbest cfg (env i).oracle a.top sw = (t, o) →
        t.neighbor = s.top.neighbor := by
      intro sw t o h
      obtain ⟨args, e, -⟩ := callGbest_eq cfg (env i).oracle a.top sw
      rw [e] at h
      have := computeGbest_keeps hk args (env i).oracle sw ht
      rw [h] at this
      exact this.trans ha
    have hc := iterate_cases cfg (ev i) (env i) iters i q a
    generalize (iterate cfg (ev i) (env i) iters i q a).1 = a' at hc ⊢
    generalize (iterate cfg (ev i) (env i) iters i q a).2 = o at hc
    have hmv : ∀ (c : Costs n K) (t : TopState n) (g : GBest n d K) (a' : Opt n d K) o,
        moveSwarm cfg (env i) iters i (recordBest t g (recordEval c a)) = (a', o) →
        a'.top = t := by
      intro c t g a' o hm
      have := moveSwarm_frame cfg (env i) iters i (recordBest t g (recordEval c a))
      rw [hm] at this
      obtain ⟨-, -, -, -, -, ft, -⟩ := this
      exact ft
    cases hc with
    | evalError e h => exact ha
    | gbestError c t e h hg => exact key _ _ _ hg
    | stop c t g h hg _ _ => exact key _ _ _ hg
    | moveError c t g _ e h hg _ hm => rw [hmv c t g _ _ hm]; exact key _ _ _ hg
    | moved c t g _ h hg _ hm => rw [hmv c t g _ _ hm]; exact key _ _ _ hg
  exact loop_inv cfg ev env iters (fun a => a.top.neighbor = s.top.neighbor) step m i q s rfl

/-- The histories of an iteration. -/
theorem iterate_history (cfg : Config n d K) (ev : Mat n d K → Except Err (Costs n K))
    (r : Draw n d K) (iters i : Nat) (q : List Bool) (s s1 : Opt n d K) (o : Except Err Flow)
    (h : iterate cfg ev r iters i q s = (s1, o)) :
    (s1.posHistory = s.posHistory ∧ s1.velocityHistory = s.velocityHistory ∧ ∃ e, o = .error e) ∨
    (s1.posHistory = s.posHistory ++ [s.swarm.position] ∧
      s1.velocityHistory = s.velocityHistory ++ [s.swarm.velocity]) := by
  have hc := iterate_cases cfg ev r iters i q s
  rw [h] at hc
  have hmv : ∀ (c : Costs n K) (t : TopState n) (g : GBest n d K) (a' : Opt n d K) o,
      moveSwarm cfg r iters i (recordBest t g (recordEval c s)) = (a', o) →
      a'.posHistory = s.posHistory ++ [s.swarm.position] ∧
      a'.velocityHistory = s.velocityHistory ++ [s.swarm.velocity] := by
    intro c t g a' o hm
    have := moveSwarm_frame cfg r iters i (recordBest t g (recordEval c s))
    rw [hm] at this
    obtain ⟨-, -, -, -, -, -, -, -, -, fp, fv, -⟩ := this
    exact ⟨fp, fv⟩
  cases hc with
  | evalError e h => exact .inl ⟨rfl, rfl, e, rfl⟩
  | gbestError c t e h hg => exact .inl ⟨rfl, rfl, e, rfl⟩
  | stop c t g h hg _ _ => exact .inr ⟨rfl, rfl⟩
  | moveError c t g _ e h hg _ hm => exact .inr (hmv c t g _ _ hm)
  | moved c t g _ h hg _ hm => exact .inr (hmv c t g _ _ hm)

/-- The two objectives agree on all particles within `t` hops of `j`, before evaluation `t`. -/
def AgreeNear (nbr : Fin n → List (Fin n)) (φ φ' : Nat → Fin n → Vec d K → XR K) (t : Nat)
    (j : Fin n) : Prop :=
  ∀ k, Hops nbr t j k → ∀ u < t, φ u k = φ' u k

theorem hops_self (nbr : Fin n → List (Fin n)) (t : Nat) (j : Fin n) : Hops nbr t j j := by
  induction t with
  | zero => rfl
  | succ t ih => exact .inl ih

theorem agreeNear_step {nbr : Fin n → List (Fin n)} {φ φ' : Nat → Fin n → Vec d K → XR K} {t : Nat}
    {j k : Fin n} (h : AgreeNear nbr φ φ' (t + 1) j) (hk : k = j ∨ k ∈ nbr j) :
    AgreeNear nbr φ φ' t k ∧ φ t k = φ' t k := by
  have up : ∀ m, Hops nbr t k m → Hops nbr (t + 1) j m := by
    intro m hm
    rcases hk with rfl | hk
    · exact .inl hm
    · exact .inr ⟨k, hk, hm⟩
  exact ⟨fun m hm u hu => h m (up m hm) u (by omega), h k (up k (hops_self nbr t k)) t (by omega)⟩

theorem loop_cone {cfg : Config n d K} (hk : cfg.kind.top.listsOnce)
    {ev ev' : Nat → Mat n d K → Except Err (Costs n K)} {φ φ' : Nat → Fin n → Vec d K → XR K}
    (hev : RowCost ev φ) (hev' : RowCost ev' φ') (env : Nat → Draw n d K) (iters : Nat)
    (nbr : Fin n → List (Fin n)) (m i : Nat) (q q' : List Bool) (s s' : Opt n d K)
    (htop : s.top = s'.top)
    (hpos : s.top.neighbor = none → s.swarm.position = s'.swarm.position)
    (hn : (loop cfg ev env iters m i q s).1.top.neighbor = some nbr)
    (hlp : s.posHistory.length = s'.posHistory.length)
    (hlv : s.velocityHistory.length = s'.velocityHistory.length)
    (hrow : ∀ j, AgreeNear nbr φ φ' i j → RowEq j s s') (u : Nat) (j : Fin n)
    (hj : AgreeNear nbr φ φ' (i + u) j) :
    (∀ P P', (loop cfg ev env iters m i q s).1.posHistory[s.posHistory.length + u]? = some P →
      (loop cfg ev' env iters m i q' s').1.posHistory[s'.posHistory.length + u]? = some P' →
      P j = P' j) ∧
    (∀ V V', (loop cfg ev env iters m i q s).1.velocityHistory[s.velocityHistory.length + u]? =
        some V →
      (loop cfg ev' env iters m i q' s').1.velocityHistory[s'.velocityHistory.length + u]? =
        some V' → V j = V' j) := by
  induction m generalizing i q q' s s' u with
  | zero =>
    simp only [loop]
    constructor
    · intro P P' h; rw [List.getElem?_eq_none (by omega)] at h; cases h
    · intro P P' h; rw [List.getElem?_eq_none (by omega)] at h; cases h
  | succ m ih =>
    -- the first entry
    have first : ∀ (ev : Nat → Mat n d K → Except Err (Costs n K)) (q : List Bool) (s : Opt n d K),
        (∀ P, (loop cfg ev env iters (m + 1) i q s).1.posHistory[s.posHistory.length]? = some P →
          P = s.swarm.position) ∧
        (∀ V, (loop cfg ev env iters (m + 1) i q s).1.velocityHistory[s.velocityHistory.length]? =
          some V → V = s.swarm.velocity) ∧
        ((∃ q1 s1, iterate cfg (ev i) (env i) iters i q s = (s1, .ok (.continue q1))) ∨
          (loop cfg ev env iters (m + 1) i q s).1.posHistory.length ≤ s.posHistory.length + 1 ∧
          (loop cfg ev env iters (m + 1) i q s).1.velocityHistory.length ≤
            s.velocityHistory.length + 1) := by
      intro ev q s
      rw [loop]
      cases hi : iterate cfg (ev i) (env i) iters i q s with
      | mk s1 o =>
        have hh := iterate_history cfg (ev i) (env i) iters i q s s1 o hi
        have snoc : ∀ {α : Type} (l : List α) (a b : α), (l ++ [a])[l.length]? = some b → b = a := by
          intro α l a b h
          rw [List.getElem?_concat_length] at h
          exact (Option.some.inj h).symm
        cases o with
        | error e =>
          dsimp only
          rcases hh with ⟨h1, h2, -⟩ | ⟨h1, h2⟩
          · rw [h1, h2]
            refine ⟨fun P h => ?_, fun V h => ?_, .inr ⟨by omega, by omega⟩⟩
            · rw [List.getElem?_eq_none (by omega)] at h; cases h
            · rw [List.getElem?_eq_none (by omega)] at h; cases h
          · rw [h1, h2]
            exact ⟨fun P h => snoc _ _ _ h, fun V h => snoc _ _ _ h, .inr ⟨by simp, by simp⟩⟩
        | ok fl =>
          rcases hh with ⟨-, -, e, he⟩ | ⟨h1, h2⟩
          · cases he
          · cases fl with
            | stop =>
              dsimp only
              rw [h1, h2]
              exact ⟨fun P h => snoc _ _ _ h, fun V h => snoc _ _ _ h, .inr ⟨by simp, by simp⟩⟩
            | «continue» q1 =>
              dsimp only
              have hg := loop_grows cfg ev env iters m (i + 1) q1 s1
              refine ⟨fun P h => ?_, fun V h => ?_, .inl ⟨q1, s1, rfl⟩⟩
              · obtain ⟨l, hl⟩ := hg.pos
                rw [← hl, h1, List.append_assoc, List.getElem?_append_right (le_refl _)] at h
                simpa using h.symm
              · obtain ⟨l, hl⟩ := hg.velocity
                rw [← hl, h2, List.append_assoc, List.getElem?_append_right (le_refl _)] at h
                simpa using h.symm
    cases u with
    | zero =>
      have hr := hrow j hj
      refine ⟨fun P P' h h' => ?_, fun V V' h h' => ?_⟩
      · rw [(first ev q s).1 P h, (first ev' q' s').1 P' h', hr.position]
      · rw [(first ev q s).2.1 V h, (first ev' q' s').2.1 V' h', hr.velocity]
    | succ u =>
      obtain ⟨-, -, hl⟩ := first ev q s
      obtain ⟨-, -, hl'⟩ := first ev' q' s'
      rcases hl with ⟨q1, s1, hi⟩ | ⟨a, b⟩
      · rcases hl' with ⟨q1', s1', hi'⟩ | ⟨a, b⟩
        · obtain ⟨t1, t2, p1, v1, hrw⟩ := iterate_row hk htop hpos hi hi'
          have p1' : s1'.posHistory = s'.posHistory ++ [s'.swarm.position] := by
            rcases iterate_history _ _ _ _ _ _ _ _ _ hi' with ⟨-, -, e, he⟩ | ⟨h1, -⟩
            · cases he
            · exact h1
          have v1' : s1'.velocityHistory = s'.velocityHistory ++ [s'.swarm.velocity] := by
            rcases iterate_history _ _ _ _ _ _ _ _ _ hi' with ⟨-, -, e, he⟩ | ⟨-, h1⟩
            · cases he
            · exact h1
          have e1 : loop cfg ev env iters (m + 1) i q s = loop cfg ev env iters m (i + 1) q1 s1 := by
            rw [loop, hi]
          have e2 : loop cfg ev' env iters (m + 1) i q' s' =
              loop cfg ev' env iters m (i + 1) q1' s1' := by
            rw [loop, hi']
          rw [e1] at hn ⊢
          rw [e2]
          have hn1 : s1.top.neighbor = some nbr := by
            rw [← loop_keeps hk ev env iters m (i + 1) q1 s1 t2]; exact hn
          have hrow1 : ∀ j, AgreeNear nbr φ φ' (i + 1) j → RowEq j s1 s1' := by
            intro j hj
            refine hrw nbr hn1 j fun k hk => ?_
            obtain ⟨a1, a2⟩ := agreeNear_step hj hk
            have hr := hrow k a1
            refine ⟨hr, fun c c' hc hc' => ?_⟩
            rw [hev i _ _ hc, hev' i _ _ hc', a2, hr.position]
          have := ih (i + 1) q1 q1' s1 s1' t1
            (fun h => by rw [hn1] at h; cases h) hn (by rw [p1, p1']; simpa using hlp)
            (by rw [v1, v1']; simpa using hlv) hrow1 u (by rw [Nat.add_right_comm]; exact hj)
          rw [p1, p1', v1, v1'] at this
          simp only [List.length_append, List.length_singleton] at this
          have ar : ∀ a : Nat, a + 1 + u = a + (u + 1) := by intro a; omega
          simpa only [ar] using this
        · refine ⟨fun P P' h h' => ?_, fun V V' h h' => ?_⟩
          · rw [List.getElem?_eq_none (by omega)] at h'; cases h'
          · rw [List.getElem?_eq_none (by omega)] at h'; cases h'
      · refine ⟨fun P P' h h' => ?_, fun V V' h h' => ?_⟩
        · rw [List.getElem?_eq_none (by omega)] at h; cases h
        · rw [List.getElem?_eq_none (by omega)] at h; cases h

/-! ### The theorems -/

/-- C87: with a topology that computes its neighbour lists once, the position and the velocity of
particle `j` at evaluation `t` of a call depend only on the costs, in the earlier evaluations, of the
particles within `t` hops of `j` in the neighbour lists.  `nbr` are the lists of the topology after
the call. -/
theorem C87_cone (cfg : Config n d K) (hk : cfg.kind.top.listsOnce)
    (ev ev' : Nat → Mat n d K → Except Err (Costs n K)) (φ φ' : Nat → Fin n → Vec d K → XR K)
    (hev : RowCost ev φ) (hev' : RowCost ev' φ') (env : Nat → Draw n d K) (iters : Nat)
    (nproc : Option Nat) (s : Opt n d K) (nbr : Fin n → List (Fin n))
    (hn : (optimize cfg ev iters nproc env s).1.top.neighbor = some nbr) (t : Nat) (j : Fin n)
    (hj : ∀ k, Hops nbr t j k → ∀ u < t, φ u k = φ' u k) :
    (∀ P P', (optimize cfg ev iters nproc env s).1.posHistory[s.posHistory.length + t]? = some P →
      (optimize cfg ev' iters nproc env s).1.posHistory[s.posHistory.length + t]? = some P' →
      P j = P' j) ∧
    (∀ V V', (optimize cfg ev iters nproc env s).1.velocityHistory[
        s.velocityHistory.length + t]? = some V →
      (optimize cfg ev' iters nproc env s).1.velocityHistory[s.velocityHistory.length + t]? =
        some V' → V j = V' j) := by
  by_cases hp : nproc = some 0
  · subst hp
    unfold optimize
    simp only [if_true]
    refine ⟨fun P P' h => ?_, fun V V' h => ?_⟩
    · rw [List.getElem?_eq_none (by omega)] at h; cases h
    · rw [List.getElem?_eq_none (by omega)] at h; cases h
  · have r := optimize_records cfg ev iters nproc hp env s
    have r' := optimize_records cfg ev' iters nproc hp env s
    have htop : (optimize cfg ev iters nproc env s).1.top =
        (loop cfg ev env iters iters 0 [] (startState cfg nproc s)).1.top := by
      have hc := optimize_cases cfg ev iters nproc env s
      generalize (optimize cfg ev iters nproc env s).1 = s' at hc ⊢
      generalize (optimize cfg ev iters nproc env s).2 = o at hc
      cases hc with
      | badPool h => exact absurd h hp
      | loopError s1 e hp h => rw [h]
      | finishError s1 e hp h hf => rw [h]
      | done r hp s1 h hf => rw [h]
    rw [htop] at hn
    rw [r.pos, r'.pos, r.velocity, r'.velocity]
    exact loop_cone hk hev hev' env iters nbr iters 0 [] [] (startState cfg nproc s)
      (startState cfg nproc s) rfl (fun _ => rfl) hn rfl rfl
      (fun j _ => ⟨rfl, rfl, rfl, rfl, rfl, rfl⟩) t j (by rw [Nat.zero_add]; exact hj)

/-- C87: a change of the costs of the particles outside a group whose neighbour lists stay within
the group is never noticed inside the group. -/
theorem C87_isolated (cfg : Config n d K) (hk : cfg.kind.top.listsOnce)
    (ev ev' : Nat → Mat n d K → Except Err (Costs n K)) (φ φ' : Nat → Fin n → Vec d K → XR K)
    (hev : RowCost ev φ) (hev' : RowCost ev' φ') (env : Nat → Draw n d K) (iters : Nat)
    (nproc : Option Nat) (s : Opt n d K) (nbr : Fin n → List (Fin n))
    (hn : (optimize cfg ev iters nproc env s).1.top.neighbor = some nbr) (group : Fin n → Prop)
    (hgroup : ∀ j, group j → ∀ k ∈ nbr j, group k)
    (hsame : ∀ j, group j → ∀ u, φ u j = φ' u j) (t : Nat) (j : Fin n) (hj : group j)
    (P P' : Mat n d K)
    (h : (optimize cfg ev iters nproc env s).1.posHistory[s.posHistory.length + t]? = some P)
    (h' : (optimize cfg ev' iters nproc env s).1.posHistory[s.posHistory.length + t]? = some P') :
    P j = P' j := by
  have hin : ∀ t j k, group j → Hops nbr t j k → group k := by
    intro t
    induction t with
    | zero => intro j k hj hk; rw [show k = j from hk]; exact hj
    | succ t ih =>
      intro j k hj hk
      rcases hk with hk | ⟨i, hi, hk⟩
      · exact ih j k hj hk
      · exact ih i k (hgroup j hj i hi) hk
  exact (C87_cone cfg hk ev ev' φ φ' hev hev' env iters nproc s nbr hn t j
    (fun k hk u _ => hsame k (hin t j k hj hk) u)).1 P P' h h'

/-! ### The dynamic Random topology

It draws new lists in every iteration, whatever the swarm looks like. -/

/-- `k` can be reached from `j` by steps from a particle to a neighbour, in the lists `nbr 0`, …,
`nbr (t - 1)` of the first `t` iterations, used in the order from the last to the first, at most one
step per iteration. -/
def HopsIn (nbr : Nat → Fin n → List (Fin n)) : Nat → Fin n → Fin n → Prop
  | 0, j, k => k = j
  | t + 1, j, k => HopsIn nbr t j k ∨ ∃ i ∈ nbr t j, HopsIn nbr t i k

theorem hopsIn_self (nbr : Nat → Fin n → List (Fin n)) (t : Nat) (j : Fin n) :
    HopsIn nbr t j j := by
  induction t with
  | zero => rfl
  | succ t ih => exact .inl ih

/-- One continued iteration of both runs with the dynamic Random topology. -/
theorem iterate_row_random {cfg : Config n d K} (hk : cfg.kind = .general (.random false))
    {k : Nat} (hkk : cfg.args.k = some k)
    {ev ev' : Mat n d K → Except Err (Costs n K)} {r : Draw n d K} {iters i : Nat}
    {q q' q1 q1' : List Bool} {s s' s1 s1' : Opt n d K}
    (hi : iterate cfg ev r iters i q s = (s1, .ok (.continue q1)))
    (hi' : iterate cfg ev' r iters i q' s' = (s1', .ok (.continue q1'))) {nbr : Fin n → List (Fin n)}
    (hn : ∀ a, randomNeighbors k (r.oracle.choice k) = .ok a → nbr = adjLists a) (j : Fin n)
    (hj : ∀ k, k = j ∨ k ∈ nbr j → RowEq k s s' ∧ ∀ c c', ev s.swarm.position = .ok c →
      ev' s'.swarm.position = .ok c' → c k = c' k) : RowEq j s1 s1' := by
  have hc := iterate_cases cfg ev r iters i q s
  have hc' := iterate_cases cfg ev' r iters i q' s'
  rw [hi] at hc
  rw [hi'] at hc'
  have hb : cfg.kind ≠ .binary := by rw [hk]; exact fun h => by cases h
  cases hc with
  | moved c t g _ he hg hns hm =>
    cases hc' with
    | moved c' t' g' _ he' hg' hns' hm' =>
      have hsame : ∀ t sw, callGbest cfg r.oracle t sw = randomGbest false k r.oracle t sw := by
        intro t sw
        unfold callGbest
        rw [hk]
        simp only [computeGbest, hkk]
      have hcg : ∀ t sw, computeGbest (.random false) cfg.args r.oracle t sw =
          randomGbest false k r.oracle t sw := by
        intro t sw
        simp only [computeGbest, hkk]
      rw [hsame] at hg hg'
      obtain ⟨h1, -⟩ := randomGbest_cases hg
      obtain ⟨h2, -⟩ := randomGbest_cases hg'
      rcases h1 with ⟨h, -⟩ | ⟨-, a, ha, e⟩
      · cases h
      rcases h2 with ⟨h, -⟩ | ⟨-, a', ha', e'⟩
      · cases h
      rw [ha] at ha'
      cases ha'
      rw [hn a ha] at hj
      subst e e'
      have hrow : ∀ k, k = j ∨ k ∈ adjLists a j → RowEq k (recordEval c s) (recordEval c' s') :=
        fun k hk => recordEval_row (hj k hk).1 ((hj k hk).2 c c' he he')
      rw [← hcg] at hg hg'
      have hgr := computeGbest_row (fun h => by cases h) hg hg' rfl j
        (fun k hk => ⟨(hrow k hk).pbestPos, (hrow k hk).pbestCost⟩)
      have hj0 := hrow j (.inl rfl)
      exact moveSwarm_row hb (s := recordBest _ g (recordEval c s))
        (s' := recordBest _ g' (recordEval c' s'))
        ⟨hj0.1, hj0.2, hj0.3, hj0.4, hj0.5, hj0.6⟩ hgr hm hm'

/-- The first history entries of a loop, and whether it continues. -/
theorem loop_head_cases (cfg : Config n d K) (ev : Nat → Mat n d K → Except Err (Costs n K))
    (env : Nat → Draw n d K) (iters m i : Nat) (q : List Bool) (s : Opt n d K) :
    (∀ P, (loop cfg ev env iters (m + 1) i q s).1.posHistory[s.posHistory.length]? = some P →
      P = s.swarm.position) ∧
    (∀ V, (loop cfg ev env iters (m + 1) i q s).1.velocityHistory[s.velocityHistory.length]? =
      some V → V = s.swarm.velocity) ∧
    ((∃ q1 s1, iterate cfg (ev i) (env i) iters i q s = (s1, .ok (.continue q1)) ∧
        s1.posHistory.length = s.posHistory.length + 1 ∧
        s1.velocityHistory.length = s.velocityHistory.length + 1 ∧
        loop cfg ev env iters (m + 1) i q s = loop cfg ev env iters m (i + 1) q1 s1) ∨
      (loop cfg ev env iters (m + 1) i q s).1.posHistory.length ≤ s.posHistory.length + 1 ∧
      (loop cfg ev env iters (m + 1) i q s).1.velocityHistory.length ≤
        s.velocityHistory.length + 1) := by
  rw [loop]
  cases hi : iterate cfg (ev i) (env i) iters i q s with
  | mk s1 o =>
    have hh := iterate_history cfg (ev i) (env i) iters i q s s1 o hi
    have snoc : ∀ {α : Type} (l : List α) (a b : α), (l ++ [a])[l.length]? = some b → b = a := by
      intro α l a b h
      rw [List.getElem?_concat_length] at h
      exact (Option.some.inj h).symm
    cases o with
    | error e =>
      dsimp only
      rcases hh with ⟨h1, h2, -⟩ | ⟨h1, h2⟩
      · rw [h1, h2]
        refine ⟨fun P h => ?_, fun V h => ?_, .inr ⟨by omega, by omega⟩⟩
        · rw [List.getElem?_eq_none (by omega)] at h; cases h
        · rw [List.getElem?_eq_none (by omega)] at h; cases h
      · rw [h1, h2]
        exact ⟨fun P h => snoc _ _ _ h, fun V h => snoc _ _ _ h, .inr ⟨by simp, by simp⟩⟩
    | ok fl =>
      rcases hh with ⟨-, -, e, he⟩ | ⟨h1, h2⟩
      · cases he
      · cases fl with
        | stop =>
          dsimp only
          rw [h1, h2]
          exact ⟨fun P h => snoc _ _ _ h, fun V h => snoc _ _ _ h, .inr ⟨by simp, by simp⟩⟩
        | «continue» q1 =>
          dsimp only
          have hg := loop_grows cfg ev env iters m (i + 1) q1 s1
          refine ⟨fun P h => ?_, fun V h => ?_, .inl ⟨q1, s1, rfl, by rw [h1]; simp,
            by rw [h2]; simp, rfl⟩⟩
          · obtain ⟨l, hl⟩ := hg.pos
            rw [← hl, h1, List.append_assoc, List.getElem?_append_right (le_refl _)] at h
            simpa using h.symm
          · obtain ⟨l, hl⟩ := hg.velocity
            rw [← hl, h2, List.append_assoc, List.getElem?_append_right (le_refl _)] at h
            simpa using h.symm

theorem loop_cone_random {cfg : Config n d K} (hk : cfg.kind = .general (.random false))
    {k : Nat} (hkk : cfg.args.k = some k)
    {ev ev' : Nat → Mat n d K → Except Err (Costs n K)} {φ φ' : Nat → Fin n → Vec d K → XR K}
    (hev : RowCost ev φ) (hev' : RowCost ev' φ') (env : Nat → Draw n d K) (iters : Nat)
    (nbr : Nat → Fin n → List (Fin n))
    (hn : ∀ u a, randomNeighbors k ((env u).oracle.choice k) = .ok a → nbr u = adjLists a)
    (m i : Nat) (q q' : List Bool) (s s' : Opt n d K)
    (hlp : s.posHistory.length = s'.posHistory.length)
    (hlv : s.velocityHistory.length = s'.velocityHistory.length)
    (hrow : ∀ j, (∀ k, HopsIn nbr i j k → ∀ u < i, φ u k = φ' u k) → RowEq j s s')
    (u : Nat) (j : Fin n) (hj : ∀ k, HopsIn nbr (i + u) j k → ∀ v < i + u, φ v k = φ' v k) :
    (∀ P P', (loop cfg ev env iters m i q s).1.posHistory[s.posHistory.length + u]? = some P →
      (loop cfg ev' env iters m i q' s').1.posHistory[s'.posHistory.length + u]? = some P' →
      P j = P' j) ∧
    (∀ V V', (loop cfg ev env iters m i q s).1.velocityHistory[s.velocityHistory.length + u]? =
        some V →
      (loop cfg ev' env iters m i q' s').1.velocityHistory[s'.velocityHistory.length + u]? =
        some V' → V j = V' j) := by
  induction m generalizing i q q' s s' u with
  | zero =>
    simp only [loop]
    constructor
    · intro P P' h; rw [List.getElem?_eq_none (by omega)] at h; cases h
    · intro P P' h; rw [List.getElem?_eq_none (by omega)] at h; cases h
  | succ m ih =>
    obtain ⟨f1, f2, hl⟩ := loop_head_cases cfg ev env iters m i q s
    obtain ⟨f1', f2', hl'⟩ := loop_head_cases cfg ev' env iters m i q' s'
    cases u with
    | zero =>
      have hr := hrow j hj
      refine ⟨fun P P' h h' => ?_, fun V V' h h' => ?_⟩
      · rw [f1 P h, f1' P' h', hr.position]
      · rw [f2 V h, f2' V' h', hr.velocity]
    | succ u =>
      rcases hl with ⟨q1, s1, hi, p1, v1, e1⟩ | ⟨a, b⟩
      · rcases hl' with ⟨q1', s1', hi', p1', v1', e2⟩ | ⟨a, b⟩
        · rw [e1, e2]
          have hrow1 : ∀ j, (∀ k, HopsIn nbr (i + 1) j k → ∀ u < i + 1, φ u k = φ' u k) →
              RowEq j s1 s1' := by
            intro j hj
            refine iterate_row_random hk hkk hi hi' (hn i) j fun k hk => ?_
            have up : ∀ m, HopsIn nbr i k m → HopsIn nbr (i + 1) j m := by
              intro m hm
              rcases hk with rfl | hk
              · exact .inl hm
              · exact .inr ⟨k, hk, hm⟩
            have hr := hrow k (fun m hm u hu => hj m (up m hm) u (by omega))
            refine ⟨hr, fun c c' hc hc' => ?_⟩
            rw [hev i _ _ hc, hev' i _ _ hc', hr.position,
              hj k (up k (hopsIn_self nbr i k)) i (by omega)]
          have := ih (i + 1) q1 q1' s1 s1' (by omega) (by omega) hrow1 u
            (by rw [Nat.add_right_comm]; exact hj)
          rw [p1, p1', v1, v1'] at this
          have ar : ∀ a : Nat, a + 1 + u = a + (u + 1) := by intro a; omega
          simpa only [ar] using this
        · refine ⟨fun P P' h h' => ?_, fun V V' h h' => ?_⟩
          · rw [List.getElem?_eq_none (by omega)] at h'; cases h'
          · rw [List.getElem?_eq_none (by omega)] at h'; cases h'
      · refine ⟨fun P P' h h' => ?_, fun V V' h h' => ?_⟩
        · rw [List.getElem?_eq_none (by omega)] at h; cases h
        · rw [List.getElem?_eq_none (by omega)] at h; cases h

/-- C87, dynamic Random topology: the neighbour lists `nbr u` of iteration `u` are those made from
the random choices of that iteration.  The position and the velocity of particle `j` at evaluation
`t` depend only on the costs of particles that reach `j` through these lists. -/
theorem C87_random (cfg : Config n d K) (hk : cfg.kind = .general (.random false)) (k : Nat)
    (hkk : cfg.args.k = some k)
    (ev ev' : Nat → Mat n d K → Except Err (Costs n K)) (φ φ' : Nat → Fin n → Vec d K → XR K)
    (hev : RowCost ev φ) (hev' : RowCost ev' φ') (env : Nat → Draw n d K) (iters : Nat)
    (nproc : Option Nat) (s : Opt n d K) (nbr : Nat → Fin n → List (Fin n))
    (hn : ∀ u a, randomNeighbors k ((env u).oracle.choice k) = .ok a → nbr u = adjLists a)
    (t : Nat) (j : Fin n) (hj : ∀ i, HopsIn nbr t j i → ∀ u < t, φ u i = φ' u i) :
    (∀ P P', (optimize cfg ev iters nproc env s).1.posHistory[s.posHistory.length + t]? = some P →
      (optimize cfg ev' iters nproc env s).1.posHistory[s.posHistory.length + t]? = some P' →
      P j = P' j) ∧
    (∀ V V', (optimize cfg ev iters nproc env s).1.velocityHistory[
        s.velocityHistory.length + t]? = some V →
      (optimize cfg ev' iters nproc env s).1.velocityHistory[s.velocityHistory.length + t]? =
        some V' → V j = V' j) := by
  by_cases hp : nproc = some 0
  · subst hp
    unfold optimize
    simp only [if_true]
    refine ⟨fun P P' h => ?_, fun V V' h => ?_⟩
    · rw [List.getElem?_eq_none (by omega)] at h; cases h
    · rw [List.getElem?_eq_none (by omega)] at h; cases h
  · have r := optimize_records cfg ev iters nproc hp env s
    have r' := optimize_records cfg ev' iters nproc hp env s
    rw [r.pos, r'.pos, r.velocity, r'.velocity]
    exact loop_cone_random hk hkk hev hev' env iters nbr hn iters 0 [] [] (startState cfg nproc s)
      (startState cfg nproc s) rfl rfl
      (fun j _ => ⟨rfl, rfl, rfl, rfl, rfl, rfl⟩) t j (by rw [Nat.zero_add]; exact hj)

/-! ### Examples -/

namespace Ex

/-- Three particles on a line: particle `i` sees itself and particle `i + 1`. -/
def chainDraw : Draw 3 1 ℚ :=
  { draw 3 1 with oracle := {
      knn := fun _ _ _ i => if i = 0 then [0, 1] else if i = 1 then [1, 2] else [2]
      delaunay := (draw 3 1).oracle.delaunay
      choice := (draw 3 1).oracle.choice } }

/-- Larger coordinates are better, but particle 2 always has the cost `a`. -/
def chainCost (a : ℚ) : Nat → Fin 3 → Vec 1 ℚ → XR ℚ := fun _ i x =>
  if i = 2 then .fin a else .fin (-(x 0))

def chainObj (a : ℚ) : Nat → Mat 3 1 ℚ → Except Err (Costs 3 ℚ) := fun t x =>
  .ok fun i => chainCost a t i (x i)

/-- A run of `LocalBestPSO(static=True)`, `k = 2`. -/
def chainRun (a : ℚ) : Opt 3 1 ℚ :=
  match construct (rcfg 3 1 true 2) (init 3 1) (init 3 1) with
  | .error _ => { swarm := mkSwarm (fun _ _ => 0) (fun _ _ => 0) [] }
  | .ok s => (optimize (rcfg 3 1 true 2) (chainObj a) 3 none (fun _ => chainDraw) s).1

/-- Coordinate of particle `i` at evaluation `t`. -/
def chainAt (a : ℚ) (t : Nat) (i : Fin 3) : Option ℚ := ((chainRun a).posHistory[t]?).map fun P => P i 0

end Ex

/-- The hypotheses are met: static lists, a row-wise objective, and lists after the run in which
particle 2 is two hops from particle 0, not one. -/
example : (Ex.rcfg 3 1 true 2).kind.top.listsOnce ∧ RowCost (Ex.chainObj 100) (Ex.chainCost 100) ∧
    (∃ nbr, (Ex.chainRun 100).top.neighbor = some nbr ∧ nbr 0 = [0, 1] ∧ Hops nbr 2 0 2 ∧
      ¬ Hops nbr 1 0 2) ∧ (Ex.chainRun 100).posHistory.length = 3 := by
  have hl : (Ex.chainRun 100).top.neighbor.map (fun f => (f 0, f 1)) = some ([0, 1], [1, 2]) := by
    decide +kernel
  refine ⟨rfl, ?_, ?_, by decide +kernel⟩
  · intro t x c h i
    cases h; rfl
  · cases hn : (Ex.chainRun 100).top.neighbor with
    | none => rw [hn] at hl; cases hl
    | some nbr =>
      rw [hn] at hl
      simp only [Option.map_some, Option.some.injEq, Prod.mk.injEq] at hl
      refine ⟨nbr, rfl, hl.1, ?_, ?_⟩
      · exact .inr ⟨1, by rw [hl.1]; decide, .inr ⟨2, by rw [hl.2]; decide, rfl⟩⟩
      · rintro (h | ⟨i, hi, h⟩)
        · exact absurd (show (2 : Fin 3) = 0 from h) (by decide)
        · rw [hl.1] at hi
          have hi' : i = 0 ∨ i = 1 := by simpa using hi
          rcases hi' with rfl | rfl
          · exact absurd (show (2 : Fin 3) = 0 from h) (by decide)
          · exact absurd (show (2 : Fin 3) = 1 from h) (by decide)

/-- C87: the delay is sharp.  When particle 2, two hops away, gets better costs, particle 0 is at the
same place at evaluation 1 and elsewhere at evaluation 2. -/
theorem C87_sharp : Ex.chainAt 100 1 0 = Ex.chainAt (-100) 1 0 ∧ Ex.chainAt 100 1 0 ≠ none ∧
    Ex.chainAt 100 2 0 ≠ none ∧ Ex.chainAt (-100) 2 0 ≠ none ∧
    Ex.chainAt 100 2 0 ≠ Ex.chainAt (-100) 2 0 := by
  decide +kernel

namespace Ex

/-- Four particles, each draws one neighbour: `0 → 1`, `1 → 2`, `2 → 3`, `3 → 2`. -/
def pathDraw : Draw 4 1 ℚ :=
  { draw 4 1 with oracle := {
      knn := (draw 4 1).oracle.knn
      delaunay := (draw 4 1).oracle.delaunay
      choice := fun _ i => if i = 3 then [2] else [i + 1] } }

/-- `GeneralOptimizerPSO(topology=Random(static=False))`, `k = 1`. -/
def pathCfg : Config 4 1 ℚ := { gcfg 4 1 with kind := .general (.random false), args := { k := some 1 } }

/-- The lists made from the choices of `pathDraw`. -/
def pathLists : Fin 4 → List (Fin 4) := fun i =>
  if i = 0 then [0, 1] else if i = 1 then [0, 1, 2] else if i = 2 then [1, 2, 3] else [2, 3]

/-- Length of the history of a run with three iterations. -/
def pathLength : Nat :=
  match construct pathCfg (init 4 1) (init 4 1) with
  | .error _ => 0
  | .ok s => (optimize pathCfg (sphere 4 1) 3 none (fun _ => pathDraw) s).1.posHistory.length

end Ex

/-- The hypotheses of `C87_random` are met by a run of three iterations in which particle 2 is two
steps from particle 0, not one. -/
example : Ex.pathCfg.kind = .general (.random false) ∧ Ex.pathCfg.args.k = some 1 ∧
    (∀ a, randomNeighbors 1 (Ex.pathDraw.oracle.choice 1) = .ok a → Ex.pathLists = adjLists a) ∧
    (randomNeighbors 1 (Ex.pathDraw.oracle.choice 1)).isOk = true ∧
    HopsIn (fun _ => Ex.pathLists) 2 0 2 ∧ ¬ HopsIn (fun _ => Ex.pathLists) 1 0 2 ∧
    Ex.pathLength = 3 := by
  have hl : (match randomNeighbors 1 (Ex.pathDraw.oracle.choice 1) with
      | .ok a => decide (∀ i, Ex.pathLists i = adjLists a i)
      | .error _ => true) = true := by decide +kernel
  refine ⟨rfl, rfl, ?_, by decide +kernel, ?_, ?_, by decide +kernel⟩
  · intro a ha
    rw [ha] at hl
    exact funext (of_decide_eq_true hl)
  · exact .inr ⟨1, by decide, .inr ⟨2, by decide, rfl⟩⟩
  · rintro (h | ⟨i, hi, h⟩)
    · exact absurd (show (2 : Fin 4) = 0 from h) (by decide)
    · have hi' : i = 0 ∨ i = 1 := by simpa [Ex.pathLists] using hi
      rcases hi' with rfl | rfl
      · exact absurd (show (2 : Fin 4) = 0 from h) (by decide)
      · exact absurd (show (2 : Fin 4) = 1 from h) (by decide)

end PySwarms
