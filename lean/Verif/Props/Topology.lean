import Verif.Lemmas.Topology
import Verif.Examples
import Mathlib.Data.Finite.Sum
import Mathlib.SetTheory.Cardinal.Finite
import Mathlib.Algebra.BigOperators.Fin
import Mathlib.Algebra.Order.BigOperators.Group.Finset

/-! # C09–C13: topologies -/

set_option linter.unusedSectionVars false

namespace PySwarms

variable {n d : Nat} {K : Type} [Field K] [LinearOrder K]

/-! ## C09 -/

/-- **C09** for `Ring` with `k ≠ 1`. -/
theorem C09_ring (st : Bool) (k p : Nat) (hk : k ≠ 1) (args : TopArgs) (ha : args.k = some k)
    (hap : args.p = some p) (o : Oracle n d K) (t t' : TopState n) (s : Swarm n d K)
    (g : GBest n d K) (hp : ∀ i, s.pbestCost i ≠ XR.nan)
    (h : computeGbest (.ring st) args o t s = (t', .ok g)) :
    ∃ nbr rows c, t'.neighbor = some nbr ∧ g = (.perParticle rows, some c) ∧
      IsNbrBest nbr s.pbestPos s.pbestCost rows c := by
  simp only [computeGbest, ha, hap] at h
  obtain ⟨t1, -, h | ⟨-, rfl, nbr, h1, h2⟩⟩ := ringGbest_cases h
  · exact absurd h.1 hk
  · obtain ⟨rows, c, h3, h4⟩ := nbrBest_spec hp h2
    exact ⟨nbr, rows, c, h1, h3, h4⟩

/-- **C09** for `Ring` with `k = 1`: every particle is its own only neighbour. -/
theorem C09_ring_single (st : Bool) (p : Nat) (args : TopArgs) (ha : args.k = some 1)
    (hap : args.p = some p) (o : Oracle n d K) (t t' : TopState n) (s : Swarm n d K)
    (g : GBest n d K) (hp : ∀ i, s.pbestCost i ≠ XR.nan)
    (h : computeGbest (.ring st) args o t s = (t', .ok g)) :
    ∃ rows c, g = (.perParticle rows, some c) ∧
      IsNbrBest (fun i => [i]) s.pbestPos s.pbestCost rows c := by
  simp only [computeGbest, ha, hap] at h
  obtain ⟨t1, -, ⟨-, -, -, h⟩ | ⟨h, -⟩⟩ := ringGbest_cases h
  · obtain ⟨c, h1, h2, h3⟩ := gatherBest_spec hp h
    refine ⟨_, c, h1, fun i => i, ?_, fun i => rfl, h2, h3⟩
    intro i
    exact ⟨[], [], rfl, by simp, by simp [XR.lt_irrefl]⟩
  · exact absurd rfl h

/-- **C09** for `VonNeumann`: like a static ring with `delannoy d r` neighbours. -/
theorem C09_vonNeumann (p r : Nat) (hk : delannoy d r ≠ 1) (args : TopArgs)
    (hap : args.p = some p) (har : args.r = some r) (o : Oracle n d K) (t t' : TopState n)
    (s : Swarm n d K) (g : GBest n d K) (hp : ∀ i, s.pbestCost i ≠ XR.nan)
    (h : computeGbest .vonNeumann args o t s = (t', .ok g)) :
    ∃ nbr rows c, t'.neighbor = some nbr ∧ g = (.perParticle rows, some c) ∧
      IsNbrBest nbr s.pbestPos s.pbestCost rows c := by
  have : computeGbest (.ring true) { k := some (delannoy d r), p := some p } o t s
      = (t', .ok g) := by
    simpa only [computeGbest, hap, har] using h
  exact C09_ring true _ p hk _ rfl rfl o t t' s g hp this

/-- **C09** for `VonNeumann` with one neighbour (`r = 0`, or no dimension): every particle is its own
only neighbour. -/
theorem C09_vonNeumann_single (p r : Nat) (hk : delannoy d r = 1) (args : TopArgs)
    (hap : args.p = some p) (har : args.r = some r) (o : Oracle n d K) (t t' : TopState n)
    (s : Swarm n d K) (g : GBest n d K) (hp : ∀ i, s.pbestCost i ≠ XR.nan)
    (h : computeGbest .vonNeumann args o t s = (t', .ok g)) :
    ∃ rows c, g = (.perParticle rows, some c) ∧
      IsNbrBest (fun i => [i]) s.pbestPos s.pbestCost rows c := by
  have : computeGbest (.ring true) { k := some (delannoy d r), p := some p } o t s
      = (t', .ok g) := by
    simpa only [computeGbest, hap, har] using h
  exact C09_ring_single true p _ (by rw [hk]) rfl o t t' s g hp this

/-- **C09** for `Random`. -/
theorem C09_random (st : Bool) (args : TopArgs) (o : Oracle n d K) (t t' : TopState n)
    (s : Swarm n d K) (g : GBest n d K) (hp : ∀ i, s.pbestCost i ≠ XR.nan)
    (h : computeGbest (.random st) args o t s = (t', .ok g)) :
    ∃ nbr rows c, t'.neighbor = some nbr ∧ g = (.perParticle rows, some c) ∧
      IsNbrBest nbr s.pbestPos s.pbestCost rows c := by
  simp only [computeGbest] at h
  split at h
  · obtain ⟨-, nbr, h1, h2⟩ := randomGbest_cases h
    obtain ⟨rows, c, h3, h4⟩ := nbrBest_spec hp h2
    exact ⟨nbr, rows, c, h1, h3, h4⟩
  · cases h

/-- **C09** for `Pyramid`: neighbours are the Delaunay neighbours, or all particles when there are
at most `d` of them (then one position is shared by all). -/
theorem C09_pyramid (st : Bool) (args : TopArgs) (o : Oracle n d K) (t t' : TopState n)
    (s : Swarm n d K) (g : GBest n d K) (hp : ∀ i, s.pbestCost i ≠ XR.nan)
    (h : computeGbest (.pyramid st) args o t s = (t', .ok g)) :
    ∃ nbr c, t'.neighbor = some nbr ∧ g.2 = some c ∧
      ((d + 1 ≤ n ∧ ∃ rows, g.1 = .perParticle rows ∧
          IsNbrBest nbr s.pbestPos s.pbestCost rows c) ∨
       (n < d + 1 ∧ nbr = (fun _ => List.finRange n) ∧ ∃ v, g.1 = .single v ∧
          IsNbrBest nbr s.pbestPos s.pbestCost (fun _ => v) c)) := by
  simp only [computeGbest] at h
  rcases pyramidGbest_cases h with ⟨hn, rfl, i, hi, rfl⟩ | ⟨hn, -, nbr, h1, h2⟩
  · refine ⟨_, _, rfl, rfl, Or.inr ⟨hn, rfl, _, rfl, fun _ => i, ?_, fun _ => rfl, ⟨i, rfl⟩, ?_⟩⟩
    · intro _
      have hn0 : 0 < n := Nat.lt_of_le_of_lt (Nat.zero_le _) i.2
      obtain ⟨k, pre, post, h1, h2, h3, h4⟩ := argminOver_spec s.pbestCost (List.finRange n)
        (by intro h; have := congrArg List.length h; simp at this; omega) (fun i _ => hp i)
      have : k = i := by
        unfold npArgmin at hi; rw [hi] at h1; exact (Option.some.inj h1).symm
      subst this
      exact ⟨pre, post, h2, h3, h4⟩
    · intro _; exact XR.lt_irrefl _
  · obtain ⟨rows, c, rfl, h4⟩ := nbrBest_spec hp h2
    exact ⟨nbr, c, h1, rfl, Or.inl ⟨hn, rows, rfl, h4⟩⟩

/-- Totality (so the previous theorems are not vacuous): a dynamic ring with `1 ≤ k ≤ n` and a
legal k-d tree answer always succeeds. -/
theorem C09_ring_succeeds (hn : 0 < n) (k p : Nat) (hk : 1 ≤ k) (hkn : k ≤ n) (hp : p ≠ 0)
    (dist : Vec d K → Vec d K → K) (o : Oracle n d K) (t : TopState n) (s : Swarm n d K)
    (ho : IsKnn dist k s.position (o.knn k p s.position)) :
    ∃ t' g, computeGbest (.ring false) { k := some k, p := some p } o t s = (t', .ok g) := by
  have h0 : ¬ (k = 0 ∨ p = 0) := by omega
  have h1 : ¬ (k > n ∧ k ≠ 1) := by omega
  simp only [computeGbest, ringGbest, ringQuery, Bool.not_false, Bool.or_true, if_true, h0, h1,
    if_false]
  by_cases hk1 : k = 1
  · simp only [hk1, if_true]
    have : ¬ (1 + 1 > npMaxDims) := by decide
    simp only [this, if_false]
    unfold gatherBest
    cases hm : npMin fun i => s.pbestCost i with
    | none => unfold npMin at hm; rw [Option.map_eq_none_iff, npArgmin_none] at hm; omega
    | some c => exact ⟨_, _, rfl⟩
  · simp only [hk1, if_false]
    obtain ⟨g, hg⟩ := nbrBest_ok (nbr := o.knn k p s.position) s hn
      (by intro i hnil; have := (ho i).1; rw [hnil] at this; simp at this; omega)
    exact ⟨_, g, by rw [hg]⟩

/-- Non-vacuity: ring, random and pyramid on a concrete swarm of 4 particles. -/
example : let s : Swarm 4 1 ℚ := {
      mkSwarm (fun i _ => ((i : Nat) : ℚ)) (fun _ _ => 0) [] with
      pbestCost := fun i => .fin (10 - ((i : Nat) : ℚ)) }
    (match computeGbest (.ring false) { k := some 2, p := some 1 } (Ex.draw 4 1).oracle {} s,
       computeGbest (.random true) { k := some 2 } (Ex.draw 4 1).oracle {} s,
       computeGbest (.pyramid false) {} (Ex.draw 4 1).oracle {} s with
    | (_, .ok (.perParticle m, some c)), (_, .ok (.perParticle m', some c')),
      (_, .ok (.perParticle m'', some c'')) =>
      decide (m 1 0 = 1 ∧ c = .fin 7 ∧ m' 3 0 = 3 ∧ c' = .fin 7 ∧ m'' 3 0 = 2 ∧ c'' = .fin 7)
    | _, _, _ => false) = true := by decide +kernel

/-! ## C10 -/

/-- **C10**.  For every `n > 0`, `k < n` and every draw, `Random` (dynamic, or static before its
first call) ends with neighbour lists that are reflexive, symmetric, contain the drawn
neighbours, form a connected graph and contain nothing else than drawn edges, self loops and edges
between particles that the draw left in different components. -/
theorem C10_random_graph (hn : 0 < n) (st : Bool) (k : Nat) (hk : k < n) (o : Oracle n d K)
    (t : TopState n) (ht : st = false ∨ t.neighbor = none) (s : Swarm n d K) :
    ∃ t' g nbr, computeGbest (.random st) { k := some k } o t s = (t', .ok g) ∧
      t'.neighbor = some nbr ∧
      (∀ i, i ∈ nbr i) ∧ (∀ i j, j ∈ nbr i ↔ i ∈ nbr j) ∧ (∀ i, ∀ j ∈ o.choice k i, j ∈ nbr i) ∧
      (∀ i j, Relation.ReflTransGen (fun a b => b ∈ nbr a) i j) ∧
      (∀ i j, j ∈ nbr i → i = j ∨ j ∈ o.choice k i ∨ i ∈ o.choice k j ∨
        ¬ Relation.ReflTransGen (fun a b => b ∈ o.choice k a ∨ a ∈ o.choice k b) i j) := by
  have hq : ((st && t.neighbor.isNone) || !st) = true := by
    rcases ht with rfl | h
    · simp
    · cases st <;> simp [h]
  have hr := randomNeighbors_ok k (o.choice k) hn hk
  generalize ha : (if isConnected (drawnAdj (o.choice k)) then drawnAdj (o.choice k)
      else addMissing (drawnAdj (o.choice k)) (drawnAdj (o.choice k))) = a at hr
  have hmem : ∀ i j, j ∈ adjLists a i ↔ a i j = true := by
    intro i j; simp [adjLists]
  have hle : ∀ i j, drawnAdj (o.choice k) i j = true → a i j = true := by
    intro i j h
    rw [← ha]
    split
    · exact h
    · simp only [addMissing]; split
      · rfl
      · exact h
  have hsymm : ∀ i j, a i j = a j i := by
    intro i j
    rw [← ha]
    split
    · exact drawnAdj_symm _ i j
    · exact addMissing_symm (drawnAdj_symm _) i j
  have hself : ∀ i, a i i = true := fun i => hle i i (by simp [drawnAdj])
  have hconn : isConnected a = true := by
    rw [← ha]
    split
    · next h => exact h
    · exact addMissing_connected hn _
  obtain ⟨g, hg⟩ := nbrBest_ok (nbr := adjLists a) s hn
    (fun i h => by have := (hmem i i).2 (hself i); rw [h] at this; cases this)
  refine ⟨{ neighbor := some (adjLists a), ndim := 1 }, g, adjLists a, ?_, rfl,
    fun i => (hmem i i).2 (hself i), ?_, ?_, ?_, ?_⟩
  · simp only [computeGbest, randomGbest, hq, if_true, hr, hg]
  · intro i j; rw [hmem, hmem, hsymm]
  · intro i j hj; rw [hmem]; exact hle i j (by simp [drawnAdj, hj])
  · intro i j
    have := ((isConnected_iff a).1 hconn).2 i j
    refine Relation.ReflTransGen.mono ?_ _ _ this
    intro x y hxy
    simp only [undirected, Bool.or_eq_true] at hxy
    rw [hmem]
    rcases hxy with h | h
    · exact h
    · rw [hsymm]; exact h
  · intro i j hij
    rw [hmem, ← ha] at hij
    have hdr : drawnAdj (o.choice k) i j = true →
        i = j ∨ j ∈ o.choice k i ∨ i ∈ o.choice k j := by
      intro h
      simp only [drawnAdj, Bool.or_eq_true, decide_eq_true_eq] at h
      tauto
    split at hij
    · have := hdr hij; tauto
    · simp only [addMissing] at hij
      split at hij
      · next hnr =>
        right; right; right
        intro hcon
        have : reachable (drawnAdj (o.choice k)) i j = true := by
          rw [reachable_iff]
          refine Relation.ReflTransGen.mono ?_ _ _ hcon
          intro x y hxy
          simp only [undirected, drawnAdj, Bool.or_eq_true, decide_eq_true_eq]
          tauto
        simp [this] at hnr
      · have := hdr hij; tauto

/-- **C10** (termination).  The repair loop performs no pass if the drawn graph is connected and
exactly one pass otherwise; it never needs a second one. -/
theorem C10_repair_passes (hn : 0 < n) (choice : Fin n → List (Fin n)) (m : Nat) (hm : 1 ≤ m) :
    ∃ a passes, repairLoop (drawnAdj choice) m (drawnAdj choice) = .ok (a, passes) ∧ passes ≤ 1 ∧
      (passes = 0 ↔ ∀ i j, Relation.ReflTransGen
        (fun x y => x = y ∨ y ∈ choice x ∨ x ∈ choice y) i j) := by
  have hr : repairLoop (drawnAdj choice) m (drawnAdj choice) =
      .ok (if isConnected (drawnAdj choice) then drawnAdj choice
        else addMissing (drawnAdj choice) (drawnAdj choice),
        if isConnected (drawnAdj choice) then 0 else 1) := by
    obtain _ | _ | m := m
    · omega
    · exact repairLoop_one hn _
    · exact repairLoop_spec hn _ m
  refine ⟨_, _, hr, by split <;> simp, ?_⟩
  have hrel : (fun x y => undirected (drawnAdj choice) x y = true) =
      fun x y => x = y ∨ y ∈ choice x ∨ x ∈ choice y := by
    funext x y
    simp only [undirected, drawnAdj, Bool.or_eq_true, decide_eq_true_eq]
    apply propext
    constructor
    · rintro ((h | h) | ((h | h) | h)) <;> tauto
    · tauto
  have hc := isConnected_iff (drawnAdj choice)
  rw [hrel] at hc
  constructor
  · intro h
    have : isConnected (drawnAdj choice) = true := by
      by_contra hcon; simp [hcon] at h
    exact (hc.1 this).2
  · intro h
    simp [hc.2 ⟨hn, h⟩]

/-- **C10** (rejected).  More neighbours than other particles: `ValueError`. -/
theorem C10_too_many_neighbours (hn : 0 < n) (k : Nat) (hk : n ≤ k) (o : Oracle n d K)
    (t : TopState n) (s : Swarm n d K) :
    computeGbest (.random false) { k := some k } o t s = (t, .error .valueError) := by
  have h1 : ¬ n = 0 := by omega
  have h2 : k > n - 1 := by omega
  simp [computeGbest, randomGbest, randomNeighbors, h1, h2]

/-- Non-vacuity: 4 particles, `k = 1`, drawn edges 0–1 and 2–3 only: one repair pass, after which
particle 0 is adjacent to particle 3. -/
example : (match repairLoop (drawnAdj (n := 4) fun i => [if i = 0 then 1 else if i = 1 then 0
      else if i = 2 then 3 else 2]) 1 (drawnAdj (n := 4) fun i => [if i = 0 then 1 else if i = 1
      then 0 else if i = 2 then 3 else 2]) with
    | .ok (a, p) => decide (p = 1) && a 0 3 && a 0 1
    | _ => false) = true := by decide +kernel

/-! ## C11 -/

/-- The topology classes with `static = True`. -/
def TopKind.isStatic : TopKind → Bool
  | .star => true
  | .ring st => st
  | .vonNeumann => true
  | .pyramid st => st
  | .random st => st

/-- State of the topology object after a sequence of `compute_gbest` calls (exceptions caught). -/
def gbestCalls (kind : TopKind) (args : TopArgs) (t : TopState n) :
    List (Oracle n d K × Swarm n d K) → TopState n
  | [] => t
  | (o, s) :: rest => gbestCalls kind args (computeGbest kind args o t s).1 rest

theorem static_step (kind : TopKind) (hs : kind.isStatic = true)
    (hpy : kind = .pyramid true → d + 1 ≤ n) (args : TopArgs) (o : Oracle n d K) (t : TopState n)
    (nbr : Fin n → List (Fin n)) (ht : t.neighbor = some nbr) (s : Swarm n d K) :
    (computeGbest kind args o t s).1.neighbor = some nbr := by
  have hring : ∀ k p, (ringGbest true k p o t s).1.neighbor = some nbr := by
    intro k p
    simp only [ringGbest, ht, Option.isNone_some, Bool.and_false, Bool.not_true, Bool.or_false,
      Bool.false_eq_true, if_false]
    split
    · split <;> simp [ht]
    · simp [ht]
  cases kind with
  | star =>
    simp only [computeGbest, starGbest, ht]
    split
    · exact ht
    · split <;> exact ht
  | ring st =>
    simp only [TopKind.isStatic] at hs
    subst hs
    simp only [computeGbest]
    split
    · exact hring _ _
    · exact ht
  | vonNeumann =>
    simp only [computeGbest]
    split
    · exact hring _ _
    · exact ht
  | pyramid st =>
    simp only [TopKind.isStatic] at hs
    subst hs
    have : ¬ n < d + 1 := by have := hpy rfl; omega
    simp [computeGbest, pyramidGbest, ht, this]
  | random st =>
    simp only [TopKind.isStatic] at hs
    subst hs
    simp only [computeGbest]
    split
    · simp [randomGbest, ht]
    · exact ht

/-- **C11** (static).  Once a static topology has neighbours, no sequence of later calls, whatever
the positions and random draws, changes them. -/
theorem C11_static_neighbours_fixed (kind : TopKind) (hs : kind.isStatic = true)
    (hpy : kind = .pyramid true → d + 1 ≤ n) (args : TopArgs) (t : TopState n)
    (nbr : Fin n → List (Fin n)) (ht : t.neighbor = some nbr)
    (calls : List (Oracle n d K × Swarm n d K)) :
    (gbestCalls kind args t calls).neighbor = some nbr := by
  induction calls generalizing t with
  | nil => exact ht
  | cons c calls ih => exact ih _ (static_step kind hs hpy args c.1 t nbr ht c.2)

/-- **C11** (`Pyramid` with at most as many particles as dimensions).  Every call, static or not,
gives every particle the whole swarm as neighbours, whatever happened before and wherever the
particles are; its result depends on the personal bests only. -/
theorem C11_pyramid_small (st : Bool) (hn : n ≤ d) (args : TopArgs) (o o' : Oracle n d K)
    (t t' : TopState n) (s : Swarm n d K) (x : Mat n d K) :
    (computeGbest (.pyramid st) args o t s).1.neighbor = some (fun _ => List.finRange n) ∧
    (computeGbest (.pyramid st) args o t s).2 =
      (computeGbest (.pyramid st) args o' t' { s with position := x }).2 := by
  have h : n < d + 1 := by omega
  constructor
  · simp only [computeGbest, pyramidGbest, h, if_true]
    split <;> rfl
  · simp only [computeGbest, pyramidGbest, h, if_true]

/-- **C11** (static).  After that, results do not depend on positions, k-d tree, triangulation or
random draws. -/
theorem C11_static_result_indep (kind : TopKind) (hs : kind.isStatic = true)
    (hpy : kind = .pyramid true → d + 1 ≤ n) (args : TopArgs) (t : TopState n)
    (nbr : Fin n → List (Fin n)) (ht : t.neighbor = some nbr)
    (o o' : Oracle n d K) (s : Swarm n d K) (x : Mat n d K) :
    computeGbest kind args o t s = computeGbest kind args o' t { s with position := x } := by
  have hring : ∀ k p, ringGbest true k p o t s =
      ringGbest true k p o' t { s with position := x } := by
    intro k p; simp [ringGbest, ht, gatherBest, nbrBest]
  cases kind with
  | star => rfl
  | ring st =>
    simp only [TopKind.isStatic] at hs
    subst hs
    simp only [computeGbest]
    split
    · exact hring _ _
    · rfl
  | vonNeumann =>
    simp only [computeGbest]
    split
    · exact hring _ _
    · rfl
  | pyramid st =>
    simp only [TopKind.isStatic] at hs
    subst hs
    have : ¬ n < d + 1 := by have := hpy rfl; omega
    simp [computeGbest, pyramidGbest, ht, this, gatherBest, nbrBest]
  | random st =>
    simp only [TopKind.isStatic] at hs
    subst hs
    simp only [computeGbest]
    split
    · simp [randomGbest, ht, gatherBest, nbrBest]
    · rfl

/-- **C11** (dynamic).  The result of a dynamic topology does not depend on what it did before. -/
theorem C11_dynamic_forgets (kind : TopKind) (hs : kind.isStatic = false) (args : TopArgs)
    (t t' : TopState n) (o : Oracle n d K) (s : Swarm n d K) :
    (computeGbest kind args o t s).2 = (computeGbest kind args o t' s).2 := by
  cases kind with
  | star => simp [TopKind.isStatic] at hs
  | vonNeumann => simp [TopKind.isStatic] at hs
  | ring st =>
    simp only [TopKind.isStatic] at hs
    subst hs
    simp only [computeGbest]
    split
    · simp only [ringGbest, Bool.not_false, Bool.or_true, if_true]
      split
      · rfl
      · split
        · split <;> rfl
        · rfl
    · rfl
  | pyramid st =>
    simp only [TopKind.isStatic] at hs
    subst hs
    simp only [computeGbest, pyramidGbest, Bool.not_false, Bool.or_true, if_true]
    split
    · rfl
    · split
      · rfl
      · rfl
  | random st =>
    simp only [TopKind.isStatic] at hs
    subst hs
    simp only [computeGbest]
    split
    · simp only [randomGbest, Bool.not_false, Bool.or_true, if_true]
      split
      · rfl
      · rfl
    · rfl

/-- **C11** (dynamic).  A dynamic topology uses the neighbours of the *current* positions; so does
the first successful call of a static one. -/
theorem C11_uses_current_positions (kind : TopKind) (args : TopArgs)
    (t t' : TopState n) (ht : kind.isStatic = false ∨ t.neighbor = none) (o : Oracle n d K)
    (s : Swarm n d K) (g : GBest n d K) (h : computeGbest kind args o t s = (t', .ok g)) :
    match kind with
    | .star => t'.neighbor = some fun _ => List.finRange n
    | .ring _ => ∃ k p, args.k = some k ∧ args.p = some p ∧
        t'.neighbor = some (o.knn k p s.position)
    | .vonNeumann => ∃ p r, args.p = some p ∧ args.r = some r ∧
        t'.neighbor = some (o.knn (delannoy d r) p s.position)
    | .pyramid _ => if n < d + 1 then t'.neighbor = some fun _ => List.finRange n
        else ∃ nbr, o.delaunay s.position = .ok nbr ∧ t'.neighbor = some nbr
    | .random _ => ∃ k a, args.k = some k ∧ randomNeighbors k (o.choice k) = .ok a ∧
        t'.neighbor = some (adjLists a) := by
  have hring : ∀ st k p, (st = false ∨ t.neighbor = none) →
      ringGbest st k p o t s = (t', .ok g) → t'.neighbor = some (o.knn k p s.position) := by
    intro st k p hst hr
    obtain ⟨t1, h1, h2⟩ := ringGbest_cases hr
    have ht1 : t1.neighbor = some (o.knn k p s.position) := by
      rcases h1 with ⟨h1, h1', -⟩ | ⟨-, -, -, -, rfl⟩
      · rcases hst with h | h
        · rw [h1] at h; cases h
        · exact absurd h h1'
      · rfl
    rcases h2 with ⟨-, -, rfl, -⟩ | ⟨-, rfl, -⟩
    · exact ht1
    · exact ht1
  cases kind with
  | star =>
    simp only [computeGbest, starGbest] at h
    rcases ht with ht | ht
    · simp [TopKind.isStatic] at ht
    · rw [ht] at h
      simp only at h
      split at h
      · cases h
      · split at h <;> (cases h; rfl)
  | ring st =>
    simp only [computeGbest] at h
    split at h
    · next k p hk hp => exact ⟨k, p, hk, hp, hring st k p ht h⟩
    · cases h
  | vonNeumann =>
    simp only [computeGbest] at h
    split at h
    · next p r hp hr =>
      refine ⟨p, r, hp, hr, hring true _ p ?_ h⟩
      rcases ht with ht | ht
      · simp [TopKind.isStatic] at ht
      · exact Or.inr ht
    · cases h
  | pyramid st =>
    simp only [computeGbest] at h
    rcases pyramidGbest_cases h with ⟨hn, rfl, -⟩ | ⟨hn, h1, -⟩
    · simp only [hn, if_true]; rfl
    · have : ¬ n < d + 1 := by omega
      simp only [this, if_false]
      rcases h1 with ⟨h1, h1', -⟩ | ⟨-, nbr, hd, rfl⟩
      · rcases ht with h | h
        · simp only [TopKind.isStatic] at h; rw [h1] at h; cases h
        · exact absurd h h1'
      · exact ⟨nbr, hd, rfl⟩
  | random st =>
    simp only [computeGbest] at h
    split at h
    · next k hk =>
      rcases (randomGbest_cases h).1 with ⟨h1, h1', -⟩ | ⟨-, a, hd, rfl⟩
      · rcases ht with h | h
        · simp only [TopKind.isStatic] at h; rw [h1] at h; cases h
        · exact absurd h h1'
      · exact ⟨k, a, hk, hd, rfl⟩
    · cases h

/-- Non-vacuity: a static ring keeps its first neighbours although the particles swap places. -/
example : let s (f : Fin 3 → ℚ) : Swarm 3 1 ℚ := {
      mkSwarm (fun i _ => f i) (fun _ _ => 0) [] with pbestCost := fun i => .fin (f i) }
    let o : Oracle 3 1 ℚ := { knn := fun _ _ x i => if x 0 0 < x 1 0 then [i, 0] else [i, 2]
                              delaunay := fun _ => .error .valueError, choice := fun _ _ => [] }
    ((computeGbest (.ring true) { k := some 2, p := some 1 } o {}
        (s fun i => ((i : Nat) : ℚ))).1.neighbor.map fun f => f 1) = some [1, 0] ∧
    ((gbestCalls (.ring true) { k := some 2, p := some 1 } {} [(o, s fun i => ((i : Nat) : ℚ)),
        (o, s fun i => - ((i : Nat) : ℚ))]).neighbor.map fun f => f 1) = some [1, 0] ∧
    ((gbestCalls (.ring false) { k := some 2, p := some 1 } {} [(o, s fun i => ((i : Nat) : ℚ)),
        (o, s fun i => - ((i : Nat) : ℚ))]).neighbor.map fun f => f 1) = some [1, 2] := by
  decide +kernel

/-! ## C12 (at the level of the topology object; runs are in `Props.Stopping`) -/

theorem ring_one_state (hn : 0 < n) (p : Nat) (hp : p ≠ 0)
    (calls : List (Oracle n d K × Swarm n d K)) (hl : calls.length ≤ 31) (hne : calls ≠ []) :
    (gbestCalls (.ring true) { k := some 1, p := some p } {} calls).neighbor ≠ none ∧
    (gbestCalls (.ring true) { k := some 1, p := some p } {} calls).ndim = calls.length + 1 := by
  have gen : ∀ (calls : List (Oracle n d K × Swarm n d K)) (t : TopState n) (m : Nat),
      t.neighbor ≠ none → t.ndim = m + 1 → m + calls.length ≤ 31 →
      (gbestCalls (.ring true) { k := some 1, p := some p } t calls).neighbor ≠ none ∧
      (gbestCalls (.ring true) { k := some 1, p := some p } t calls).ndim
        = m + calls.length + 1 := by
    intro calls
    induction calls with
    | nil => intro t m h1 h2 _; exact ⟨h1, h2⟩
    | cons c calls ih =>
      intro t m h1 h2 h3
      simp only [gbestCalls, computeGbest]
      have hnb : t.neighbor.isNone = false := by
        cases h : t.neighbor with
        | none => exact absurd h h1
        | some _ => rfl
      have hd : ¬ t.ndim + 1 > npMaxDims := by
        simp only [List.length_cons] at h3; unfold npMaxDims; omega
      have hstep : (ringGbest true 1 p c.1 t c.2).1 = { t with ndim := t.ndim + 1 } := by
        simp [ringGbest, hnb, hd]
      rw [hstep]
      obtain ⟨h4, h5⟩ := ih { t with ndim := t.ndim + 1 } (m + 1) h1 (by simp [h2])
        (by simp only [List.length_cons] at h3; omega)
      refine ⟨h4, ?_⟩
      rw [h5]; simp only [List.length_cons]; omega
  cases calls with
  | nil => exact absurd rfl hne
  | cons c calls =>
    simp only [gbestCalls, computeGbest]
    have hd : ¬ (1 + 1 > npMaxDims) := by decide
    have hstep : (ringGbest true 1 p c.1 {} c.2).1 =
        { neighbor := some (c.1.knn 1 p c.2.position), ndim := 2 } := by
      simp [ringGbest, ringQuery, hp, hd]
    rw [hstep]
    obtain ⟨h4, h5⟩ := gen calls { neighbor := some (c.1.knn 1 p c.2.position), ndim := 2 } 1
      (by simp) rfl (by simp only [List.length_cons] at hl; omega)
    refine ⟨h4, ?_⟩
    rw [h5]; simp only [List.length_cons]; omega

/-- **C12**.  A static ring with `k = 1`: the first 31 calls of `compute_gbest` succeed … -/
theorem C12_first_31_succeed (hn : 0 < n) (p : Nat) (hp : p ≠ 0)
    (calls : List (Oracle n d K × Swarm n d K)) (hl : calls.length ≤ 30)
    (o : Oracle n d K) (s : Swarm n d K) :
    ∃ g, (computeGbest (.ring true) { k := some 1, p := some p } o
      (gbestCalls (.ring true) { k := some 1, p := some p } {} calls) s).2 = .ok g := by
  have hg : ∃ g, gatherBest (fun i => i) s = .ok g := by
    unfold gatherBest
    cases hm : npMin fun i => s.pbestCost i with
    | none => unfold npMin at hm; rw [Option.map_eq_none_iff, npArgmin_none] at hm; omega
    | some c => exact ⟨_, rfl⟩
  obtain ⟨g, hg⟩ := hg
  refine ⟨g, ?_⟩
  by_cases hne : calls = []
  · subst hne
    have hd : ¬ (1 + 1 > npMaxDims) := by decide
    simp [gbestCalls, computeGbest, ringGbest, ringQuery, hp, hd, hg]
  · obtain ⟨h1, h2⟩ := ring_one_state hn p hp calls (by omega) hne
    have hnb : (gbestCalls (.ring true) { k := some 1, p := some p } {} calls).neighbor.isNone
        = false := by
      cases h : (gbestCalls (.ring true) { k := some 1, p := some p } {} calls).neighbor with
      | none => exact absurd h h1
      | some _ => rfl
    have hd : ¬ (calls.length + 1 + 1 > npMaxDims) := by unfold npMaxDims; omega
    simp [computeGbest, ringGbest, hnb, h2, hd, hg]

/-- … and the 32nd raises `IndexError`. -/
theorem C12_32nd_fails (hn : 0 < n) (p : Nat) (hp : p ≠ 0)
    (calls : List (Oracle n d K × Swarm n d K)) (hl : calls.length = 31)
    (o : Oracle n d K) (s : Swarm n d K) :
    (computeGbest (.ring true) { k := some 1, p := some p } o
      (gbestCalls (.ring true) { k := some 1, p := some p } {} calls) s).2
      = .error .indexError := by
  obtain ⟨h1, h2⟩ := ring_one_state hn p hp calls (by omega)
    (by intro h; rw [h] at hl; simp at hl)
  have hnb : (gbestCalls (.ring true) { k := some 1, p := some p } {} calls).neighbor.isNone
      = false := by
    cases h : (gbestCalls (.ring true) { k := some 1, p := some p } {} calls).neighbor with
    | none => exact absurd h h1
    | some _ => rfl
  have hd : calls.length + 1 + 1 > npMaxDims := by unfold npMaxDims; omega
  simp [computeGbest, ringGbest, hnb, h2, hd]

/-- `VonNeumann` with `r = 0` behaves as that ring. -/
theorem C12_vonNeumann_zero (p : Nat) (o : Oracle n d K) (t : TopState n) (s : Swarm n d K) :
    computeGbest .vonNeumann { p := some p, r := some 0 } o t s =
      computeGbest (.ring true) { k := some 1, p := some p } o t s := by
  have : delannoy d 0 = 1 := by cases d <;> simp [delannoy]
  simp [computeGbest, this]

/-- Non-vacuity: 31 calls on a concrete swarm exist. -/
example : ∃ calls : List (Oracle 2 1 ℚ × Swarm 2 1 ℚ), calls.length = 31 :=
  ⟨List.replicate 31 ((Ex.draw 2 1).oracle, mkSwarm (fun _ _ => 0) (fun _ _ => 0) []), by simp⟩

/-- A dynamic ring never raises `IndexError` for `k ≤ n`. -/
theorem C12_dynamic_ok (k p : Nat) (hk : k ≤ n) (o : Oracle n d K) (t : TopState n)
    (s : Swarm n d K) :
    (computeGbest (.ring false) { k := some k, p := some p } o t s).2 ≠ .error .indexError := by
  have hnb : ∀ nbr : Fin n → List (Fin n), nbrBest nbr s ≠ .error .indexError := by
    intro nbr
    unfold nbrBest gatherBest
    split
    · simp
    · split <;> simp
  have hgb : gatherBest (fun i => i) s ≠ .error .indexError := by
    unfold gatherBest; split <;> simp
  simp only [computeGbest, ringGbest, Bool.not_false, Bool.or_true, if_true, ringQuery]
  by_cases h0 : k = 0 ∨ p = 0
  · simp [h0]
  · have h1 : ¬ (k > n ∧ k ≠ 1) := by omega
    simp only [h0, h1, if_false]
    by_cases hk1 : k = 1
    · have hd : ¬ (1 + 1 > npMaxDims) := by decide
      simp only [hk1, if_true, hd, if_false]
      exact hgb
    · simp only [hk1, if_false]
      exact hnb _

/-! ## C13 -/

/-- The integer points of the `d`-dimensional Von Neumann neighbourhood of range `r`. -/
def VonNeumannCells (d r : Nat) : Type := { x : Fin d → ℤ // ∑ i, |x i| ≤ (r : ℤ) }

theorem cells_zero_dim (r : Nat) : Nat.card (VonNeumannCells 0 r) = 1 := by
  rw [Nat.card_eq_one_iff_unique]
  exact ⟨⟨fun a b => Subtype.ext (funext fun i => i.elim0)⟩, ⟨⟨fun i => i.elim0, by simp⟩⟩⟩

theorem cells_zero_range (d : Nat) : Nat.card (VonNeumannCells d 0) = 1 := by
  rw [Nat.card_eq_one_iff_unique]
  refine ⟨⟨fun a b => Subtype.ext (funext fun i => ?_)⟩, ⟨⟨fun i => 0, by simp⟩⟩⟩
  have key : ∀ x : VonNeumannCells d 0, x.1 i = 0 := by
    intro x
    have h1 : |x.1 i| ≤ ∑ j, |x.1 j| :=
      Finset.single_le_sum (f := fun j => |x.1 j|) (fun j _ => abs_nonneg _) (Finset.mem_univ i)
    have h2 := x.2
    have h3 : |x.1 i| ≤ 0 := by push_cast at h2; omega
    exact abs_nonpos_iff.1 h3
  rw [key a, key b]

/-- Splitting by the first coordinate. -/
def cellsEquiv (d r : Nat) : VonNeumannCells (d + 1) (r + 1) ≃
    (VonNeumannCells d (r + 1) ⊕ VonNeumannCells d r) ⊕ VonNeumannCells (d + 1) r where
  toFun x :=
    if h0 : x.1 0 = 0 then .inl (.inl ⟨Fin.tail x.1, by
      have := x.2; rw [Fin.sum_univ_succ, h0] at this; simpa [Fin.tail] using this⟩)
    else if h1 : x.1 0 = -1 then .inl (.inr ⟨Fin.tail x.1, by
      have := x.2; rw [Fin.sum_univ_succ, h1] at this
      have e : |(-1 : ℤ)| = 1 := rfl
      rw [e] at this; push_cast at this
      show ∑ i, |Fin.tail x.1 i| ≤ (r : ℤ)
      simp only [Fin.tail]; omega⟩)
    else .inr ⟨Fin.cons (if 0 < x.1 0 then x.1 0 - 1 else x.1 0 + 1) (Fin.tail x.1), by
      have := x.2; rw [Fin.sum_univ_succ] at this ⊢
      push_cast at this
      simp only [Fin.cons_zero, Fin.cons_succ, Fin.tail]
      by_cases h : 0 < x.1 0
      · rw [if_pos h, abs_of_nonneg (by omega : 0 ≤ x.1 0 - 1)]
        rw [abs_of_pos h] at this; omega
      · rw [if_neg h, abs_of_nonpos (by omega : x.1 0 + 1 ≤ 0)]
        rw [abs_of_nonpos (by omega)] at this; omega⟩
  invFun y := match y with
    | .inl (.inl t) => ⟨Fin.cons 0 t.1, by
        have := t.2; rw [Fin.sum_univ_succ]; simpa using this⟩
    | .inl (.inr t) => ⟨Fin.cons (-1) t.1, by
        have := t.2; rw [Fin.sum_univ_succ]
        have e : |(-1 : ℤ)| = 1 := rfl
        simp only [Fin.cons_zero, Fin.cons_succ, e]; push_cast; omega⟩
    | .inr x => ⟨Fin.cons (if 0 ≤ x.1 0 then x.1 0 + 1 else x.1 0 - 1) (Fin.tail x.1), by
        have := x.2; rw [Fin.sum_univ_succ] at this ⊢
        simp only [Fin.cons_zero, Fin.cons_succ, Fin.tail]
        push_cast
        by_cases h : 0 ≤ x.1 0
        · rw [if_pos h, abs_of_nonneg (by omega : 0 ≤ x.1 0 + 1)]
          rw [abs_of_nonneg h] at this; omega
        · rw [if_neg h, abs_of_nonpos (by omega : x.1 0 - 1 ≤ 0)]
          rw [abs_of_nonpos (by omega)] at this; omega⟩
  left_inv x := by
    apply Subtype.ext
    by_cases h0 : x.1 0 = 0
    · simp only [h0, dif_pos]
      rw [← h0]; exact Fin.cons_self_tail x.1
    · by_cases h1 : x.1 0 = -1
      · simp only [h0, h1, dif_pos, dif_neg, not_false_iff]
        simp only [show ¬ ((-1 : ℤ) = 0) by omega, dif_neg, not_false_iff]
        rw [← h1]; exact Fin.cons_self_tail x.1
      · simp only [h0, h1, dif_neg, not_false_iff, Fin.cons_zero, Fin.tail_cons]
        conv_rhs => rw [← Fin.cons_self_tail x.1]
        congr 1
        split_ifs <;> omega
  right_inv y := by
    rcases y with (t | t) | x
    · simp only [Fin.cons_zero, dif_pos, Fin.tail_cons]; rfl
    · simp only [Fin.cons_zero, show ¬ ((-1 : ℤ) = 0) by omega, dif_neg, not_false_iff, dif_pos,
        Fin.tail_cons]; rfl
    · by_cases h : 0 ≤ x.1 0
      · have h0 : ¬ (x.1 0 + 1 = 0) := by omega
        have h1 : ¬ (x.1 0 + 1 = -1) := by omega
        have h2 : 0 < x.1 0 + 1 := by omega
        simp only [h, if_true, Fin.cons_zero, h0, h1, dif_neg, not_false_iff, Fin.tail_cons, h2]
        congr 1
        apply Subtype.ext
        simp only [add_sub_cancel_right]
        exact Fin.cons_self_tail x.1
      · have h0 : ¬ (x.1 0 - 1 = 0) := by omega
        have h1 : ¬ (x.1 0 - 1 = -1) := by omega
        have h2 : ¬ (0 < x.1 0 - 1) := by omega
        simp only [h, if_false, Fin.cons_zero, h0, h1, dif_neg, not_false_iff, Fin.tail_cons, h2]
        congr 1
        apply Subtype.ext
        simp only [sub_add_cancel]
        exact Fin.cons_self_tail x.1

theorem cells_finite (d r : Nat) : Finite (VonNeumannCells d r) := by
  induction d, r using delannoy.induct with
  | case1 r =>
    exact (Nat.finite_of_card_ne_zero (by rw [cells_zero_dim]; omega))
  | case2 d => exact (Nat.finite_of_card_ne_zero (by rw [cells_zero_range]; omega))
  | case3 d r h1 h2 h3 =>
    haveI := h1; haveI := h2; haveI := h3
    exact Finite.of_equiv _ (cellsEquiv d r).symm

/-- **C13**.  `delannoy(d, r)` is the number of integer points within `L1` distance `r` of the
origin in dimension `d`. -/
theorem C13_delannoy_counts (d r : Nat) : delannoy d r = Nat.card (VonNeumannCells d r) := by
  induction d, r using delannoy.induct with
  | case1 r => rw [cells_zero_dim]; simp [delannoy]
  | case2 d => rw [cells_zero_range]; simp [delannoy]
  | case3 d r h1 h2 h3 =>
    haveI := cells_finite d (r + 1)
    haveI := cells_finite d r
    haveI := cells_finite (d + 1) r
    rw [delannoy, h1, h2, h3, Nat.card_congr (cellsEquiv d r), Nat.card_sum, Nat.card_sum]

/-- **C13** (symmetry). -/
theorem C13_delannoy_symm (d r : Nat) : delannoy d r = delannoy r d := by
  induction d, r using delannoy.induct with
  | case1 r => cases r <;> simp [delannoy]
  | case2 d => simp [delannoy]
  | case3 d r h1 h2 h3 => rw [delannoy, delannoy, h1, h2, h3]; omega

/-- **C13** (termination).  With Python's recursion limit: `delannoy(d, r)` returns as soon as
`d + r` nested calls are allowed (`depth > d + r`). -/
theorem C13_delannoy_terminates (d r depth : Nat) (h : d + r < depth) :
    delannoyPy depth (d : ℤ) (r : ℤ) = .ok (delannoy d r) := by
  induction depth generalizing d r with
  | zero => omega
  | succ f ih =>
    unfold delannoyPy
    match d, r with
    | 0, r => simp [delannoy]
    | d + 1, 0 => simp [delannoy]
    | d + 1, r + 1 =>
      have h0 : ¬ (((d + 1 : Nat) : ℤ) = 0 ∨ ((r + 1 : Nat) : ℤ) = 0) := by omega
      have e1 : ((d + 1 : Nat) : ℤ) - 1 = (d : ℤ) := by omega
      have e2 : ((r + 1 : Nat) : ℤ) - 1 = (r : ℤ) := by omega
      rw [if_neg h0, e1, e2, ih d (r + 1) (by omega), ih d r (by omega), ih (d + 1) r (by omega)]
      simp only [delannoy]

/-- **C13** (failure).  With a negative argument (and neither argument 0) every recursion depth is
exceeded: `RecursionError`. -/
theorem C13_delannoy_negative (depth : Nat) (d r : ℤ) (hd : d ≠ 0) (hr : r ≠ 0)
    (h : d < 0 ∨ r < 0) : delannoyPy depth d r = .error .recursionError := by
  induction depth generalizing d r with
  | zero => rfl
  | succ f ih =>
    unfold delannoyPy
    have h0 : ¬ (d = 0 ∨ r = 0) := by omega
    rw [if_neg h0]
    by_cases hd1 : d = 1
    · subst hd1
      have e : ((1 : ℤ) - 1) = 0 := by norm_num
      rw [e, ih 1 (r - 1) (by omega) (by omega) (by omega)]
      cases f with
      | zero => rfl
      | succ f => simp [delannoyPy]
    · rw [ih (d - 1) r (by omega) hr (by omega)]

/-- Non-vacuity: the values used in practice. -/
example : delannoy 2 1 = 5 ∧ delannoy 3 1 = 7 ∧ delannoy 2 2 = 13 ∧
    delannoyPy 1000 2 (-1) = .error .recursionError := by
  refine ⟨by decide +kernel, by decide +kernel, by decide +kernel, ?_⟩
  exact C13_delannoy_negative 1000 2 (-1) (by omega) (by omega) (by omega)

end PySwarms
