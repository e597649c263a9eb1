import Verif.Props.SearchSeed

/-!
# Enlarging the grid of a hyperparameter search (C124)
-/

namespace PySwarms

/-! ## Specification -/

/-- `a` is a strictly better score than `b`. -/
def Better {K : Type} [LT K] [DecidableLT K] (maximum : Bool) (a b : XR K) : Prop :=
  (if maximum then XR.lt b a else XR.lt a b) = true

section
variable {K O G : Type} [LinearOrder K]

theorem xr_lt_trans {a b c : XR K} (h : XR.lt a b = true) (h' : XR.lt b c = true) :
    XR.lt a c = true := by
  cases a <;> cases b <;> cases c <;> simp_all [XR.lt]
  exact lt_trans h h'

theorem better_trans {maximum : Bool} {a b c : XR K} (h : Better maximum a b)
    (h' : Better maximum b c) : Better maximum a c := by
  unfold Better at *
  cases maximum
  · exact xr_lt_trans h h'
  · exact xr_lt_trans h' h

/-- `min` or `max` over a list continued by another one. -/
theorem foldl_better (maximum : Bool) (m : List (Nat × XR K)) (cur : Nat × XR K) :
    let r := m.foldl (fun cur b => if (if maximum then XR.lt cur.2 b.2 else XR.lt b.2 cur.2) then b
      else cur) cur
    r = cur ∨ Better maximum r.2 cur.2 := by
  induction m generalizing cur with
  | nil => exact .inl rfl
  | cons a m ih =>
    dsimp only [List.foldl_cons]
    by_cases h : (if maximum then XR.lt cur.2 a.2 else XR.lt a.2 cur.2) = true
    · rw [if_pos h]
      rcases ih a with e | hb
      · right; rw [e]; exact h
      · exact .inr (better_trans hb h)
    · rw [if_neg h]
      exact ih cur

/-- The choice of `search` among the scores. -/
def choose (maximum : Bool) (l : List (Nat × XR K)) : Option (Nat × XR K) :=
  if maximum then pyMax l else pyMin l

theorem choose_append (maximum : Bool) (l m : List (Nat × XR K)) (a : Nat × XR K)
    (h : choose maximum l = some a) :
    ∃ b, choose maximum (l ++ m) = some b ∧ (b = a ∨ Better maximum b.2 a.2) := by
  cases l with
  | nil => cases maximum <;> cases h
  | cons x l =>
    cases maximum
    · simp only [choose, pyMin, Bool.false_eq_true, if_false, Option.some.injEq, List.cons_append,
        List.foldl_append, exists_eq_left'] at h ⊢
      rw [h]
      exact foldl_better false m a
    · simp only [choose, pyMax, if_true, Option.some.injEq, List.cons_append,
        List.foldl_append, exists_eq_left'] at h ⊢
      rw [h]
      exact foldl_better true m a

omit [LinearOrder K] in
theorem enumerate_append (l m : List (XR K)) :
    ∃ m', enumerate (l ++ m) = enumerate l ++ m' := by
  unfold enumerate
  rw [List.length_append, List.range_add, List.zip_append (by simp)]
  exact ⟨_, rfl⟩

omit [LinearOrder K] in
theorem scoreAllG_append (score : O → G → G × Except Err (XR K)) (grid extra : List O) (g : G)
    (scores : List (XR K)) (h : (scoreAllG score (grid ++ extra) g).2 = .ok scores) :
    ∃ l m, scores = l ++ m ∧ (scoreAllG score grid g).2 = .ok l ∧ l.length = grid.length := by
  induction grid generalizing g scores with
  | nil => exact ⟨[], scores, rfl, rfl, rfl⟩
  | cons o grid ih =>
    simp only [List.cons_append, scoreAllG] at h ⊢
    rcases ho : score o g with ⟨g1, e | c⟩
    · rw [ho] at h; cases h
    · rw [ho] at h
      dsimp only at h ⊢
      rcases hr : scoreAllG score (grid ++ extra) g1 with ⟨g2, e | cs⟩
      · rw [hr] at h; cases h
      · rw [hr] at h
        cases h
        obtain ⟨l, m, e1, e2, e3⟩ := ih g1 cs (by rw [hr])
        rcases hl : scoreAllG score grid g1 with ⟨g3, e | cs'⟩
        · rw [hl] at e2; cases e2
        · rw [hl] at e2
          cases e2
          exact ⟨c :: l, m, by rw [e1]; rfl, rfl, by simp [e3]⟩

theorem searchG_choose {score : O → G → G × Except Err (XR K)} {maximum : Bool} {grid : List O} {g : G}
    {v : XR K × O} (h : (searchG score maximum grid g).2 = .ok v) :
    ∃ scores a, (scoreAllG score grid g).2 = .ok scores ∧ choose maximum (enumerate scores) = some a ∧
      a.2 = v.1 ∧ grid[a.1]? = some v.2 := by
  unfold searchG at h
  rcases hs : scoreAllG score grid g with ⟨g1, e | scores⟩
  · rw [hs] at h; cases h
  · rw [hs] at h
    dsimp only at h
    split at h
    · cases h
    · next m hm =>
      split at h
      · cases h
      · next idx c hc =>
        split at h
        · cases h
        · next o ho =>
          cases h
          refine ⟨scores, (idx, c), rfl, ?_, rfl, ho⟩
          unfold choose
          cases maximum
          · rw [hm]; exact hc
          · exact hc

/-- C124: candidates added at the end of the grid never make the result of a search worse, whatever the
optimizer, the objective (it may use the random numbers too) and the generator: the larger search
returns the same score and the same options, or a strictly better score. -/
theorem C124_not_worse (score : O → G → G × Except Err (XR K)) (maximum : Bool) (grid extra : List O)
    (g : G) (v v' : XR K × O) (h : (searchG score maximum grid g).2 = .ok v)
    (h' : (searchG score maximum (grid ++ extra) g).2 = .ok v') :
    v' = v ∨ Better maximum v'.1 v.1 := by
  obtain ⟨scores, a, h1, h2, h3, h4⟩ := searchG_choose h
  obtain ⟨scores', a', h1', h2', h3', h4'⟩ := searchG_choose h'
  obtain ⟨l, m, e1, e2, e3⟩ := scoreAllG_append score grid extra g scores' h1'
  rw [h1] at e2
  cases e2
  obtain ⟨m', hm'⟩ := enumerate_append scores m
  obtain ⟨b, hb, hb'⟩ := choose_append maximum (enumerate scores) m' a h2
  rw [e1, hm', hb] at h2'
  cases h2'
  rcases hb' with rfl | hbet
  · left
    have hlt : a'.1 < grid.length := by
      by_contra hge
      rw [List.getElem?_eq_none (by omega)] at h4
      cases h4
    rw [List.getElem?_append_left hlt, h4] at h4'
    exact Prod.ext (by rw [← h3, ← h3']) (Option.some.inj h4').symm
  · right
    rw [← h3, ← h3']
    exact hbet

end

/-- C124: appending values to the list of the first option of the dictionary adds combinations at the
end of the grid. -/
theorem C124_first_option {V : Type} (key : String) (vs more : List V)
    (rest : List (String × GridVal V)) :
    ∃ grid extra, gridSearchGrid ((key, .list vs) :: rest) = .ok grid ∧
      gridSearchGrid ((key, .list (vs ++ more)) :: rest) = .ok (grid ++ extra) ∧
      (∀ g ∈ extra, ∃ v ∈ more, g.head? = some (key, v)) := by
  refine ⟨_, (product ((.list more : GridVal V).items :: rest.map fun o => o.2.items)).map
    fun t => (key :: rest.map Prod.fst).zip t, rfl, ?_, ?_⟩
  · simp only [gridSearchGrid, List.isEmpty_cons, Bool.false_eq_true, if_false, List.map_cons,
      GridVal.items, product, List.flatMap_append, List.map_append]
  · intro g hg
    obtain ⟨t, ht, rfl⟩ := List.mem_map.1 hg
    simp only [product, GridVal.items, List.mem_flatMap, List.mem_map] at ht
    obtain ⟨v, hv, t', -, rfl⟩ := ht
    exact ⟨v, hv, rfl⟩

/-- C124: so a GridSearch from the same state of the generator whose first option has got further values
at the end of its list never returns a worse score. -/
theorem C124_grid_search {K V O G : Type} [LinearOrder K] (toOptions : List (String × V) → O)
    (score : O → G → G × Except Err (XR K)) (maximum : Bool) (key : String) (vs more : List V)
    (rest : List (String × GridVal V)) (grid grid' : List (List (String × V)))
    (hg : gridSearchGrid ((key, .list vs) :: rest) = .ok grid)
    (hg' : gridSearchGrid ((key, .list (vs ++ more)) :: rest) = .ok grid') (g : G) (v v' : XR K × O)
    (h : (searchG score maximum (grid.map toOptions) g).2 = .ok v)
    (h' : (searchG score maximum (grid'.map toOptions) g).2 = .ok v') :
    v' = v ∨ Better maximum v'.1 v.1 := by
  obtain ⟨a, b, e1, e2, -⟩ := C124_first_option key vs more rest
  rw [hg] at e1; rw [hg'] at e2
  cases e1; cases e2
  rw [List.map_append] at h'
  exact C124_not_worse score maximum _ _ g v v' h h'

namespace Ex

/-- A generator whose 17th to 32nd double are 1/8, the others 1/2. -/
def lucky (n d : Nat) : Rng n d ℚ Nat where
  real := fun m => (if 16 ≤ m ∧ m < 32 then 1 / 8 else 1 / 2, m + 1)
  bits := fun m => (fun _ _ => m % 2 = 0, m + 1)
  choice := fun k i m => (((List.finRange n).filter (· ≠ i)).take k, m + 1)

/-- GridSearch with two particles minimising `x ** 2` in two iterations. -/
def luckySearch (options : List (String × GridVal ℚ)) : Option ℚ :=
  match gridSearchGrid options with
  | .error _ => none
  | .ok grid => match (searchG (fun o => generateScoreG ((gcfg 2 1).withOptions o) (quietSphere 2 1)
      (lucky 2 1) (libs 2 1) 2) false (grid.map fun o => (o, ({} : TopArgs))) 0).2 with
    | .ok (.fin c, _) => some c
    | _ => none

end Ex

/-- C124: values added to another option can make the result worse: the dictionary with
`w = [1/2, -1]` and `c1 = [1]` gives 9/64; with `c1 = [1, 2]` the combinations have other random numbers,
and the result is 1/4.  With `w = [1/2, -1, 1]` instead it is 9/64 again. -/
theorem C124_other_option :
    Ex.luckySearch [("w", .list [1 / 2, -1]), ("c1", .list [1]), ("c2", .single 1)] = some (9 / 64) ∧
    Ex.luckySearch [("w", .list [1 / 2, -1]), ("c1", .list [1, 2]), ("c2", .single 1)] = some (1 / 4) ∧
    Ex.luckySearch [("w", .list [1 / 2, -1, 1]), ("c1", .list [1]), ("c2", .single 1)] =
      some (9 / 64) := by
  decide +kernel

end PySwarms
