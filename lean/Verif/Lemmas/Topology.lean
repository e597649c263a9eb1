import Verif.Lemmas.Gbest
import Mathlib.Logic.Relation
import Mathlib.Data.Fintype.Card
import Mathlib.Tactic.Tauto
import Mathlib.Data.List.Perm.Subperm

/-! Lemmas about topologies: neighbourhood bests, graph repair, k-nearest answers. -/

set_option linter.unusedSectionVars false

namespace PySwarms

variable {n d : Nat} {K : Type}

/-! ### Reachability -/

theorem reachIn_sound (a : Adj n) (m : Nat) (i j : Fin n) (h : reachIn a m i j = true) :
    Relation.ReflTransGen (fun x y => undirected a x y = true) i j := by
  induction m generalizing j with
  | zero => simp [reachIn] at h; subst h; exact .refl
  | succ m ih =>
    simp only [reachIn, Bool.or_eq_true, List.any_eq_true, Bool.and_eq_true] at h
    rcases h with h | ⟨k, _, h1, h2⟩
    · exact ih j h
    · exact (ih k h1).tail h2

theorem reachIn_mono_succ (a : Adj n) (m : Nat) (i j : Fin n) (h : reachIn a m i j = true) :
    reachIn a (m + 1) i j = true := by
  simp only [reachIn, Bool.or_eq_true]; exact Or.inl h

theorem reachIn_mono (a : Adj n) {m m' : Nat} (hm : m ≤ m') (i j : Fin n)
    (h : reachIn a m i j = true) : reachIn a m' i j = true := by
  induction hm with
  | refl => exact h
  | step _ ih => exact reachIn_mono_succ a _ i j ih

theorem reachIn_mono_adj {a b : Adj n} (hab : ∀ i j, a i j = true → b i j = true) (m : Nat)
    (i j : Fin n) (h : reachIn a m i j = true) : reachIn b m i j = true := by
  induction m generalizing j with
  | zero => exact h
  | succ m ih =>
    simp only [reachIn, Bool.or_eq_true, List.any_eq_true, Bool.and_eq_true] at h ⊢
    rcases h with h | ⟨k, hk, h1, h2⟩
    · exact Or.inl (ih j h)
    · refine Or.inr ⟨k, hk, ih k h1, ?_⟩
      simp only [undirected, Bool.or_eq_true] at h2 ⊢
      exact h2.imp (hab _ _) (hab _ _)

/-- Paths of length at most `n` suffice. -/
theorem reachIn_stable (a : Adj n) (i : Fin n) :
    ∃ m, m ≤ n ∧ ∀ j, reachIn a (m + 1) i j = true → reachIn a m i j = true := by
  by_contra hcon
  push Not at hcon
  have grow : ∀ m, m ≤ n → m + 1 ≤ (Finset.univ.filter fun j => reachIn a m i j = true).card := by
    intro m
    induction m with
    | zero =>
      intro _
      apply Finset.card_pos.2
      exact ⟨i, by simp [reachIn]⟩
    | succ m ih =>
      intro hm
      have h1 := ih (by omega)
      obtain ⟨j, hj1, hj2⟩ := hcon m (by omega)
      have hss : (Finset.univ.filter fun j => reachIn a m i j = true) ⊂
          (Finset.univ.filter fun j => reachIn a (m + 1) i j = true) := by
        rw [Finset.ssubset_iff_of_subset]
        · exact ⟨j, by simpa using hj1, by simpa using hj2⟩
        · intro x hx
          simp only [Finset.mem_filter, Finset.mem_univ, true_and] at hx ⊢
          exact reachIn_mono_succ a m i x hx
      have := Finset.card_lt_card hss
      omega
  have h1 := grow n le_rfl
  have h2 := Finset.card_le_univ (Finset.univ.filter fun j => reachIn a n i j = true)
  simp at h2
  omega

theorem reachable_iff (a : Adj n) (i j : Fin n) :
    reachable a i j = true ↔ Relation.ReflTransGen (fun x y => undirected a x y = true) i j := by
  constructor
  · exact reachIn_sound a n i j
  · intro h
    obtain ⟨m, hm, hst⟩ := reachIn_stable a i
    have : reachIn a m i j = true := by
      induction h with
      | refl => exact reachIn_mono a (Nat.zero_le m) i i (by simp [reachIn])
      | tail _ hxy ih =>
        apply hst
        simp only [reachIn, Bool.or_eq_true, List.any_eq_true, Bool.and_eq_true]
        exact Or.inr ⟨_, List.mem_finRange _, ih, hxy⟩
    exact reachIn_mono a hm i j this

theorem isConnected_iff (a : Adj n) :
    isConnected a = true ↔ 0 < n ∧
      ∀ i j, Relation.ReflTransGen (fun x y => undirected a x y = true) i j := by
  simp only [isConnected, Bool.and_eq_true, decide_eq_true_eq, List.all_eq_true,
    List.mem_finRange, true_implies, reachable_iff]

/-! ### The repair loop of `Random` -/

theorem addMissing_connected (hn : 0 < n) (a : Adj n) : isConnected (addMissing a a) = true := by
  rw [isConnected_iff]
  refine ⟨hn, fun i j => ?_⟩
  by_cases h : reachable a i j = true
  · have := (reachable_iff a i j).1 h
    refine Relation.ReflTransGen.mono ?_ _ _ this
    intro x y hxy
    simp only [undirected, addMissing, Bool.or_eq_true] at hxy ⊢
    rcases hxy with hxy | hxy
    · left; split <;> simp_all
    · right; split <;> simp_all
  · refine .single ?_
    simp [undirected, addMissing, h]

theorem repairLoop_spec (hn : 0 < n) (a : Adj n) (m : Nat) :
    repairLoop a (m + 2) a = .ok (if isConnected a then a else addMissing a a,
      if isConnected a then 0 else 1) := by
  unfold repairLoop
  by_cases h : isConnected a = true
  · simp [h]
  · unfold repairLoop
    simp [h, addMissing_connected hn a]

theorem repairLoop_one (hn : 0 < n) (a : Adj n) :
    repairLoop a 1 a = .ok (if isConnected a then a else addMissing a a,
      if isConnected a then 0 else 1) := by
  unfold repairLoop
  by_cases h : isConnected a = true
  · simp [h]
  · unfold repairLoop
    simp [h, addMissing_connected hn a]

theorem randomNeighbors_ok (k : Nat) (choice : Fin n → List (Fin n)) (hn : 0 < n) (hk : k < n) :
    randomNeighbors k choice = .ok (if isConnected (drawnAdj choice) then drawnAdj choice
      else addMissing (drawnAdj choice) (drawnAdj choice)) := by
  unfold randomNeighbors
  have h1 : ¬ n = 0 := by omega
  have h2 : ¬ k > n - 1 := by omega
  simp only [h1, h2, if_false, repairLoop_spec hn (drawnAdj choice) 0]

/-- The pass allowance in `randomNeighbors` never matters. -/
theorem randomNeighbors_ne_diverges (k : Nat) (choice : Fin n → List (Fin n)) :
    randomNeighbors k choice ≠ .error .diverges := by
  by_cases hn : 0 < n
  · by_cases hk : k < n
    · rw [randomNeighbors_ok k choice hn hk]; simp
    · unfold randomNeighbors
      have h1 : ¬ n = 0 := by omega
      have h2 : k > n - 1 := by omega
      simp [h1, h2]
  · have : n = 0 := by omega
    subst this; simp [randomNeighbors]

theorem drawnAdj_symm (choice : Fin n → List (Fin n)) (i j : Fin n) :
    drawnAdj choice i j = drawnAdj choice j i := by
  simp only [drawnAdj]
  rw [show decide (i = j) = decide (j = i) by simp [eq_comm], Bool.or_right_comm]

theorem reachable_symm (a : Adj n) (i j : Fin n) : reachable a i j = reachable a j i := by
  rw [Bool.eq_iff_iff, reachable_iff, reachable_iff]
  have hs : ∀ x y : Fin n, Relation.ReflTransGen (fun x y => undirected a x y = true) x y →
      Relation.ReflTransGen (fun x y => undirected a x y = true) y x := by
    intro x y h
    induction h with
    | refl => exact .refl
    | tail _ hbc ih =>
      refine .head ?_ ih
      simp only [undirected, Bool.or_eq_true] at hbc ⊢
      exact hbc.symm
  exact ⟨hs i j, hs j i⟩

theorem addMissing_symm {a : Adj n} (h : ∀ i j, a i j = a j i) (i j : Fin n) :
    addMissing a a i j = addMissing a a j i := by
  simp only [addMissing, reachable_symm a i j, h i j]

/-! ### Neighbourhood bests -/

section
variable [Field K] [LinearOrder K]

theorem gatherBest_spec {bn : Fin n → Fin n} {s : Swarm n d K} {g : GBest n d K}
    (hp : ∀ i, s.pbestCost i ≠ XR.nan) (h : gatherBest bn s = .ok g) :
    ∃ c, g = (.perParticle fun i => s.pbestPos (bn i), some c) ∧
      (∃ i, c = s.pbestCost (bn i)) ∧ ∀ i, XR.lt (s.pbestCost (bn i)) c = false := by
  unfold gatherBest at h
  split at h
  · cases h
  · next c hc =>
    cases h
    refine ⟨c, rfl, ?_⟩
    unfold npMin at hc
    rw [Option.map_eq_some_iff] at hc
    obtain ⟨i, hi, rfl⟩ := hc
    rw [npArgmin_eq_some_iff _ (fun i => hp (bn i))] at hi
    exact ⟨⟨i, rfl⟩, hi.1⟩

theorem nbrBest_spec {nbr : Fin n → List (Fin n)} {s : Swarm n d K} {g : GBest n d K}
    (hp : ∀ i, s.pbestCost i ≠ XR.nan) (h : nbrBest nbr s = .ok g) :
    ∃ rows c, g = (.perParticle rows, some c) ∧
      IsNbrBest nbr s.pbestPos s.pbestCost rows c := by
  unfold nbrBest at h
  split at h
  · cases h
  · next hne =>
    obtain ⟨c, hg, h5, h6⟩ := gatherBest_spec hp h
    refine ⟨_, c, hg, _, ?_, fun i => rfl, h5, h6⟩
    intro i
    have hni : nbr i ≠ [] := by
      intro hnil
      apply hne
      simp only [List.any_eq_true, Option.isNone_iff_eq_none]
      exact ⟨i, List.mem_finRange i, (argminOver_eq_none_iff _ _).2 hnil⟩
    obtain ⟨k, pre, post, h1, h2, h3, h4⟩ := argminOver_spec s.pbestCost (nbr i) hni
      (fun i _ => hp i)
    simp only [bestNeighbor, h1, Option.getD_some]
    exact ⟨pre, post, h2, h3, h4⟩

theorem nbrBest_ok {nbr : Fin n → List (Fin n)} (s : Swarm n d K) (hn : 0 < n)
    (hne : ∀ i, nbr i ≠ []) : ∃ g, nbrBest nbr s = .ok g := by
  unfold nbrBest
  split
  · next h =>
    simp only [List.any_eq_true, Option.isNone_iff_eq_none] at h
    obtain ⟨i, _, hi⟩ := h
    exact absurd ((argminOver_eq_none_iff _ _).1 hi) (hne i)
  · unfold gatherBest
    split
    · next h =>
      unfold npMin at h
      rw [Option.map_eq_none_iff, npArgmin_none] at h
      omega
    · exact ⟨_, rfl⟩

/-- If the neighbourhoods cover the swarm, the neighbourhood best is the overall best. -/
theorem isNbrBest_cover {nbr : Fin n → List (Fin n)} {pp : Mat n d K} {pc : Costs n K}
    {rows : Mat n d K} {c : XR K}
    (hp : ∀ i, pc i ≠ XR.nan) (h : IsNbrBest nbr pp pc rows c) (hc : ∀ j, ∃ i, j ∈ nbr i) :
    (∃ i, c = pc i) ∧ ∀ i, XR.lt (pc i) c = false := by
  obtain ⟨b, h1, _, ⟨i, h4⟩, h5⟩ := h
  refine ⟨⟨b i, h4⟩, fun j => ?_⟩
  obtain ⟨i', hi'⟩ := hc j
  obtain ⟨_, _, _, _, h6⟩ := h1 i'
  exact XR.not_lt_trans (hp (b i')) (h6 j hi') (h5 i')

/-! ### The state left behind by `compute_gbest` -/

theorem ringGbest_cases {st : Bool} {k p : Nat} {o : Oracle n d K} {t t' : TopState n}
    {s : Swarm n d K} {g : GBest n d K} (h : ringGbest st k p o t s = (t', .ok g)) :
    ∃ t1, ((st = true ∧ t.neighbor ≠ none ∧ t1 = t) ∨
        ((st = false ∨ t.neighbor = none) ∧ k ≠ 0 ∧ p ≠ 0 ∧ (k ≤ n ∨ k = 1) ∧
          t1 = { neighbor := some (o.knn k p s.position), ndim := if k = 1 then 1 else 2 })) ∧
      ((k = 1 ∧ t1.ndim + 1 ≤ npMaxDims ∧ t' = { t1 with ndim := t1.ndim + 1 } ∧
          gatherBest (fun i => i) s = .ok g) ∨
       (k ≠ 1 ∧ t' = t1 ∧ ∃ nbr, t1.neighbor = some nbr ∧ nbrBest nbr s = .ok g)) := by
  unfold ringGbest at h
  dsimp only at h
  split at h
  · cases h
  · next t1 hq =>
    refine ⟨t1, ?_, ?_⟩
    · split at hq
      · next hc =>
        unfold ringQuery at hq
        split at hq
        · cases hq
        · next h0 =>
          split at hq
          · cases hq
          · next h1 =>
            cases hq
            right
            refine ⟨?_, by tauto, by tauto, by omega, rfl⟩
            simp only [Bool.or_eq_true, Bool.and_eq_true, Bool.not_eq_true',
              Option.isNone_iff_eq_none] at hc
            tauto
      · next hc =>
        cases hq
        left
        simp only [Bool.or_eq_true, Bool.and_eq_true, Bool.not_eq_true',
              Option.isNone_iff_eq_none] at hc
        refine ⟨by cases st <;> simp_all, ?_, rfl⟩
        intro hn; cases st <;> simp_all
    · split at h
      · next hk =>
        split at h
        · cases h
        · next hd =>
          left
          rw [Prod.mk.injEq] at h
          exact ⟨hk, by omega, h.1.symm, h.2⟩
      · next hk =>
        split at h
        · cases h
        · next nbr hn =>
          right
          rw [Prod.mk.injEq] at h
          exact ⟨hk, h.1.symm, nbr, hn, h.2⟩

theorem pyramidGbest_cases {st : Bool} {o : Oracle n d K} {t t' : TopState n}
    {s : Swarm n d K} {g : GBest n d K} (h : pyramidGbest st o t s = (t', .ok g)) :
    (n < d + 1 ∧ t' = { neighbor := some (allNeighbors n), ndim := 2 } ∧
      ∃ i, npArgmin s.pbestCost = some i ∧ g = (.single (s.pbestPos i), some (s.pbestCost i))) ∨
    (d + 1 ≤ n ∧ ((st = true ∧ t.neighbor ≠ none ∧ t' = t) ∨
        ((st = false ∨ t.neighbor = none) ∧ ∃ nbr, o.delaunay s.position = .ok nbr ∧
          t' = { neighbor := some nbr, ndim := 1 })) ∧
      ∃ nbr, t'.neighbor = some nbr ∧ nbrBest nbr s = .ok g) := by
  unfold pyramidGbest at h
  dsimp only at h
  split at h
  · next hn =>
    split at h
    · cases h
    · next i hi =>
      left
      rw [Prod.mk.injEq] at h
      exact ⟨hn, h.1.symm, i, hi, by cases h.2; rfl⟩
  · next hn =>
    right
    refine ⟨by omega, ?_⟩
    split at h
    · cases h
    · next t1 hq =>
      split at h
      · cases h
      · next nbr hnb =>
        rw [Prod.mk.injEq] at h
        obtain ⟨rfl, h2⟩ := h
        refine ⟨?_, nbr, hnb, h2⟩
        split at hq
        · next hc =>
          right
          split at hq
          · cases hq
          · next nbr' hd =>
            cases hq
            refine ⟨?_, nbr', hd, rfl⟩
            simp only [Bool.or_eq_true, Bool.and_eq_true, Bool.not_eq_true',
              Option.isNone_iff_eq_none] at hc
            tauto
        · next hc =>
          cases hq
          left
          simp only [Bool.or_eq_true, Bool.and_eq_true, Bool.not_eq_true',
              Option.isNone_iff_eq_none] at hc
          refine ⟨by cases st <;> simp_all, ?_, rfl⟩
          intro hn; cases st <;> simp_all

theorem randomGbest_cases {st : Bool} {k : Nat} {o : Oracle n d K} {t t' : TopState n}
    {s : Swarm n d K} {g : GBest n d K} (h : randomGbest st k o t s = (t', .ok g)) :
    ((st = true ∧ t.neighbor ≠ none ∧ t' = t) ∨
        ((st = false ∨ t.neighbor = none) ∧ ∃ a, randomNeighbors k (o.choice k) = .ok a ∧
          t' = { neighbor := some (adjLists a), ndim := 1 })) ∧
      ∃ nbr, t'.neighbor = some nbr ∧ nbrBest nbr s = .ok g := by
  unfold randomGbest at h
  dsimp only at h
  split at h
  · cases h
  · next t1 hq =>
    split at h
    · cases h
    · next nbr hnb =>
      rw [Prod.mk.injEq] at h
      obtain ⟨rfl, h2⟩ := h
      refine ⟨?_, nbr, hnb, h2⟩
      split at hq
      · next hc =>
        right
        split at hq
        · cases hq
        · next nbr' hd =>
          cases hq
          refine ⟨?_, nbr', hd, rfl⟩
          simp only [Bool.or_eq_true, Bool.and_eq_true, Bool.not_eq_true',
            Option.isNone_iff_eq_none] at hc
          tauto
      · next hc =>
        cases hq
        left
        simp only [Bool.or_eq_true, Bool.and_eq_true, Bool.not_eq_true',
            Option.isNone_iff_eq_none] at hc
        refine ⟨by cases st <;> simp_all, ?_, rfl⟩
        intro hn; cases st <;> simp_all

/-- If at most `k` points coincide with point `i`, a `k`-nearest answer for `i` contains `i`. -/
theorem self_mem_of_isKnn {dist : Vec d K → Vec d K → K} (hd : IsDist dist) {k : Nat}
    {x : Mat n d K} {nbr : Fin n → List (Fin n)} (h : IsKnn dist k x nbr) (i : Fin n)
    (hc : ((List.finRange n).filter fun j => x j = x i).length ≤ k) : i ∈ nbr i := by
  obtain ⟨hl, hnd, -, hnear⟩ := h i
  by_contra hi
  have hco : ∀ a ∈ nbr i, x a = x i := by
    intro a ha
    have h1 := hnear a ha i hi
    rw [(hd.2 (x i) (x i)).2 rfl] at h1
    exact ((hd.2 _ _).1 (le_antisymm h1 (hd.1 _ _))).symm
  have hsub : (i :: nbr i) ⊆ (List.finRange n).filter fun j => x j = x i := by
    intro a ha
    rw [List.mem_cons] at ha
    simp only [List.mem_filter, List.mem_finRange, true_and, decide_eq_true_eq]
    rcases ha with rfl | ha
    · rfl
    · exact hco a ha
  have := (List.Nodup.subperm (List.nodup_cons.2 ⟨hi, hnd⟩) hsub).length_le
  simp only [List.length_cons] at this
  omega

end

end PySwarms
