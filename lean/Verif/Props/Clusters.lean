import Verif.Props.Spread
import Verif.Props.StaticRuns
import Verif.Props.Reset
import Mathlib.Data.Finset.Card
import Mathlib.Algebra.Order.Group.Unbundled.Abs
import Mathlib.Algebra.Order.Ring.Abs
import Mathlib.Tactic.FinCases

/-!
# The neighbourhoods of the Ring topology (C126)
-/

namespace PySwarms

variable {n d : Nat} {K : Type}

/-! ## Specification -/

/-- The `p`-th power of the Minkowski distance `p` (the `p`-th root does not change which particles are
nearest). -/
def minkowski [Field K] [LinearOrder K] (p : Nat) (x y : Vec d K) : K := ∑ j, |x j - y j| ^ p

/-- The members of the group are nearer to each other than to anyone else. -/
def Clustered [LT K] (dist : Vec d K → Vec d K → K) (x : Mat n d K) (group : Finset (Fin n)) : Prop :=
  ∀ i ∈ group, ∀ a ∈ group, ∀ b, b ∉ group → dist (x i) (x a) < dist (x i) (x b)

/-- No two other particles are equally far from a particle. -/
def ApartDistances (dist : Vec d K → Vec d K → K) (x : Mat n d K) : Prop :=
  ∀ i a b, dist (x i) (x a) = dist (x i) (x b) → a = b

/-! ## Theorems -/

/-- A list of distinct particles as long as a set, with an element outside the set, misses an element of
the set. -/
theorem exists_missing {l : List (Fin n)} (hl : l.Nodup) {a : Fin n} (ha : a ∈ l) {s : Finset (Fin n)}
    (has : a ∉ s) (hc : l.length ≤ s.card) : ∃ b ∈ s, b ∉ l := by
  by_contra h
  push Not at h
  have hsub : s ⊂ l.toFinset :=
    ⟨fun b hb => List.mem_toFinset.2 (h b hb), fun hle => has (hle (List.mem_toFinset.2 ha))⟩
  have := Finset.card_lt_card hsub
  rw [List.toFinset_card_of_nodup hl] at this
  omega

/-- C126: the `k` nearest neighbours of a member of a group of at least `k` particles that lie nearer to
each other than to the others belong to the group.  (So despite its name, the Ring topology need not
connect the swarm.) -/
theorem C126_group [LinearOrder K] (dist : Vec d K → Vec d K → K) (k : Nat) (x : Mat n d K)
    (nbr : Fin n → List (Fin n)) (h : IsKnn dist k x nbr) (group : Finset (Fin n)) (hk : k ≤ group.card)
    (hg : Clustered dist x group) : ∀ i ∈ group, ∀ a ∈ nbr i, a ∈ group := by
  intro i hi a ha
  by_contra hag
  obtain ⟨hlen, hnd, -, hnear⟩ := h i
  obtain ⟨b, hb, hbl⟩ := exists_missing hnd ha hag (by omega)
  exact absurd (hg i hi b hb a hag) (not_lt.2 (hnear a ha b hbl))

/-- C126: without ties, more neighbours are further neighbours: nobody is replaced. -/
theorem C126_nested [LinearOrder K] (dist : Vec d K → Vec d K → K) (k k' : Nat) (hk : k ≤ k')
    (x : Mat n d K) (ht : ApartDistances dist x) (nbr nbr' : Fin n → List (Fin n)) (h : IsKnn dist k x nbr)
    (h' : IsKnn dist k' x nbr') (i : Fin n) : ∀ a ∈ nbr i, a ∈ nbr' i := by
  intro a ha
  by_contra ha'
  obtain ⟨hlen, hnd, -, hnear⟩ := h i
  obtain ⟨hlen', hnd', -, hnear'⟩ := h' i
  obtain ⟨b, hb, hbl⟩ := exists_missing (s := (nbr' i).toFinset) hnd ha
    (fun hm => ha' (List.mem_toFinset.1 hm)) (by rw [List.toFinset_card_of_nodup hnd']; omega)
  have hb := List.mem_toFinset.1 hb
  have e := ht i a b (le_antisymm (hnear a ha b hbl) (hnear' b hb a ha'))
  exact ha' (e ▸ hb)

theorem xr_not_lt_trans [LinearOrder K] {u v w : XR K} (hu : u ≠ .nan) (hv : v ≠ .nan) (hw : w ≠ .nan)
    (h : XR.lt u v = false) (h' : XR.lt v w = false) : XR.lt u w = false := by
  cases u <;> cases v <;> cases w <;> simp [XR.lt] at *
  exact le_trans h' h

/-- C126: so with more neighbours every particle follows a personal best that is at least as good (in
the same swarm), and the best cost reported is not larger. -/
theorem C126_better_guides [LinearOrder K] (dist : Vec d K → Vec d K → K) (k k' : Nat) (hk : k ≤ k')
    (x : Mat n d K) (ht : ApartDistances dist x) (nbr nbr' : Fin n → List (Fin n)) (h : IsKnn dist k x nbr)
    (h' : IsKnn dist k' x nbr') (pp : Mat n d K) (pc : Costs n K) (hnan : ∀ i, pc i ≠ XR.nan) (rows rows' : Mat n d K)
    (c c' : XR K) (hb : IsNbrBest nbr pp pc rows c) (hb' : IsNbrBest nbr' pp pc rows' c') :
    (∀ i, ∃ a b, rows i = pp a ∧ rows' i = pp b ∧ a ∈ nbr i ∧ b ∈ nbr' i ∧ XR.lt (pc a) (pc b) = false) ∧
      XR.lt c c' = false := by
  obtain ⟨b, h1, h2, ⟨i, h3⟩, -⟩ := hb
  obtain ⟨b', h1', h2', h3', h4'⟩ := hb'
  have mem : ∀ i, b i ∈ nbr i := fun i => by
    obtain ⟨pre, post, e, -⟩ := h1 i
    rw [e]; simp
  have mem' : ∀ i, b' i ∈ nbr' i := fun i => by
    obtain ⟨pre, post, e, -⟩ := h1' i
    rw [e]; simp
  have key : ∀ i, XR.lt (pc (b i)) (pc (b' i)) = false := fun i => by
    obtain ⟨_, _, -, -, hmin⟩ := h1' i
    exact hmin _ (C126_nested dist k k' hk x ht nbr nbr' h h' i _ (mem i))
  refine ⟨fun i => ⟨b i, b' i, h2 i, h2' i, mem i, mem' i, key i⟩, ?_⟩
  obtain ⟨z, hz⟩ := h3'
  rw [h3]
  have a2 := h4' i
  rw [hz] at a2 ⊢
  exact xr_not_lt_trans (hnan _) (hnan _) (hnan _) (key i) a2

/-- C126: in one dimension the norm does not matter: `p = 1` and `p = 2` (any exponents) admit the same
neighbour lists. -/
theorem C126_norm [Field K] [LinearOrder K] [IsStrictOrderedRing K] (p q : Nat) (hp : p ≠ 0) (hq : q ≠ 0)
    (k : Nat) (x : Mat n 1 K) (nbr : Fin n → List (Fin n)) :
    IsKnn (minkowski p) k x nbr ↔ IsKnn (minkowski q) k x nbr := by
  have key : ∀ (p q : Nat), p ≠ 0 → q ≠ 0 → ∀ a b c : Vec 1 K,
      minkowski p a b ≤ minkowski p a c → minkowski q a b ≤ minkowski q a c := by
    intro p q hp hq a b c h
    simp only [minkowski, Fin.sum_univ_one] at h ⊢
    rw [pow_le_pow_iff_left₀ (abs_nonneg _) (abs_nonneg _) hp] at h
    exact pow_le_pow_left₀ (abs_nonneg _) h q
  constructor
  · intro h i
    obtain ⟨h1, h2, h3, h4⟩ := h i
    exact ⟨h1, h2, h3.imp fun h => key p q hp hq _ _ _ h, fun a ha b hb => key p q hp hq _ _ _ (h4 a ha b hb)⟩
  · intro h i
    obtain ⟨h1, h2, h3, h4⟩ := h i
    exact ⟨h1, h2, h3.imp fun h => key q p hq hp _ _ _ h, fun a ha b hb => key q p hq hp _ _ _ (h4 a ha b hb)⟩

/-- C126: LocalBestPSO with `static=True` (or GeneralOptimizerPSO with a static Ring) whose swarm starts
in groups: a group of at least `k` particles that starts nearer together than to the others never
learns anything from them.  Changing the costs of the other particles changes no position of the
group, in no iteration of the call. -/
theorem C126_clusters [Field K] [LinearOrder K] [IsStrictOrderedRing K] [Transc K] [FloorRing K] (cfg : Config n d K)
    (hk : cfg.kind = .localBest true ∨ cfg.kind = .general (.ring true)) (k p : Nat)
    (hkk : cfg.args.k = some k) (hkp : cfg.args.p = some p)
    (ev ev' : Nat → Mat n d K → Except Err (Costs n K)) (φ φ' : Nat → Fin n → Vec d K → XR K)
    (hev : RowCost ev φ) (hev' : RowCost ev' φ') (env : Nat → Draw n d K) (iters : Nat) (hi : 0 < iters)
    (nproc : Option Nat) (s s' : Opt n d K) (r : XR K × Vec d K) (h0 : s.top.neighbor = none)
    (hok : optimize cfg ev iters nproc env s = (s', .ok r)) (dist : Vec d K → Vec d K → K)
    (hknn : IsKnn dist k s.swarm.position ((env 0).oracle.knn k p s.swarm.position))
    (group : Finset (Fin n)) (hc : k ≤ group.card) (hg : Clustered dist s.swarm.position group)
    (hsame : ∀ j ∈ group, ∀ u, φ u j = φ' u j) (t : Nat) (j : Fin n) (hj : j ∈ group) (P P' : Mat n d K)
    (hP : s'.posHistory[s.posHistory.length + t]? = some P)
    (hP' : (optimize cfg ev' iters nproc env s).1.posHistory[s.posHistory.length + t]? = some P') :
    P j = P' j := by
  obtain ⟨k', p', e1, e2, hn⟩ := C11_optimizer_first cfg hk ev iters hi nproc env s s' r h0 hok
  rw [hkk] at e1; rw [hkp] at e2
  cases e1; cases e2
  refine C87_isolated cfg ?_ ev ev' φ φ' hev hev' env iters nproc s _ (by rw [hok]; exact hn)
    (· ∈ group) (fun j hj a ha => C126_group dist k _ _ hknn group hc hg j hj a ha) hsame t j hj P P'
    (by rw [hok]; exact hP) hP'
  rcases hk with e | e <;> rw [e] <;> exact rfl

namespace Ex

/-- Four particles at 0, 1, 10, 11. -/
def pairs : Mat 4 1 ℚ := fun i _ => if i = 0 then 0 else if i = 1 then 1 else if i = 2 then 10 else 11

/-- Three particles at 0, 1, 3. -/
def uneven : Mat 3 1 ℚ := fun i _ => if i = 0 then 0 else if i = 1 then 1 else 3

end Ex

/-- C126: neighbours need not be mutual: of three particles at 0, 1, 3 with `k = 2`, the third has the
second as neighbour but not conversely. -/
theorem C126_not_mutual : IsKnn (fun x y => |x 0 - y 0|) 2 Ex.uneven (Ex.lineKnn 2 Ex.uneven) ∧
    ApartDistances (fun x y => |x 0 - y 0|) Ex.uneven ∧
    1 ∈ Ex.lineKnn 2 Ex.uneven 2 ∧ 2 ∉ Ex.lineKnn 2 Ex.uneven 1 := by
  refine ⟨Ex.lineOk_isKnn (by decide +kernel), ?_, by decide +kernel, by decide +kernel⟩
  unfold ApartDistances
  decide +kernel

namespace Ex

/-- Three particles at (0, 0), (2, 2), (3, 0). -/
def corner : Mat 3 2 ℚ := fun i j => if i = 0 then 0 else if i = 1 then 2 else if j = 0 then 3 else 0

/-- Each with the particle that is nearest in the sum norm. -/
def cornerNbr : Fin 3 → List (Fin 3) := fun i => if i = 0 then [0, 2] else if i = 1 then [1, 2] else [2, 0]

end Ex

/-- C126: in two dimensions the norm matters: lists that are right for `p = 1` and wrong for `p = 2`. -/
theorem C126_norm_matters :
    IsKnn (minkowski 1) 2 Ex.corner Ex.cornerNbr ∧ ¬ IsKnn (minkowski 2) 2 Ex.corner Ex.cornerNbr := by
  constructor
  · intro i
    fin_cases i <;> exact ⟨rfl, by decide, by decide +kernel, by decide +kernel⟩
  · intro h
    exact absurd ((h 0).2.2.2 2 (by decide) 1 (by decide)) (by decide +kernel)

namespace Ex

/-- LocalBestPSO with `static=True`, `k = 2` and four particles in two pairs. -/
def pairsCfg : Config 4 1 ℚ := { rcfg 4 1 true 2 with initPos := some pairs }

/-- The distance to `a`, but the last two particles are told `far`. -/
def twoGroups (far : ℚ) : Nat → Mat 4 1 ℚ → Except Err (Costs 4 ℚ) := fun _ x =>
  .ok fun i => .fin (if 2 ≤ i.1 then far else |x i 0 - 6|)

/-- The position of a particle in the third evaluation. -/
def pairsAt (cfg : Config 4 1 ℚ) (far : ℚ) (i : Fin 4) : Option ℚ :=
  match construct cfg (init 4 1) (init 4 1) with
  | .error _ => none
  | .ok s => (optimize cfg (twoGroups far) 3 none (fun _ => lineDraw 4) s).1.posHistory[2]?.map (· i 0)

end Ex

/-- The hypotheses of `C126_clusters` on the example: the run returns, the lists are right, the first
pair is a group; and with a fully connected swarm (`k = 4`) the first particle does notice the others. -/
example : (match construct Ex.pairsCfg (Ex.init 4 1) (Ex.init 4 1) with
    | .ok s => s.top.neighbor.isNone && Ex.lineOk 2 s.swarm.position &&
        (optimize Ex.pairsCfg (Ex.twoGroups 0) 3 none (fun _ => Ex.lineDraw 4) s).2.isOk
    | .error _ => false) = true ∧
    Clustered (fun x y => |x 0 - y 0|) Ex.pairs {0, 1} ∧ ({0, 1} : Finset (Fin 4)).card = 2 ∧
    RowCost (Ex.twoGroups 0) (fun _ i x => .fin (if 2 ≤ i.1 then 0 else |x 0 - 6|)) ∧
    Ex.pairsAt Ex.pairsCfg 0 0 ≠ none ∧ Ex.pairsAt Ex.pairsCfg 0 0 = Ex.pairsAt Ex.pairsCfg 100 0 ∧
    Ex.pairsAt { Ex.pairsCfg with args := { k := some 4, p := some 2 } } 0 0 ≠
      Ex.pairsAt { Ex.pairsCfg with args := { k := some 4, p := some 2 } } 100 0 := by
  refine ⟨by decide +kernel, by unfold Clustered; decide +kernel, by decide, ?_, by decide +kernel,
    by decide +kernel, by decide +kernel⟩
  intro t x c h i
  cases h
  rfl

end PySwarms
