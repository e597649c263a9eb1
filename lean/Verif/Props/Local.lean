import Verif.Lemmas.Cover
import Verif.Examples

/-! # C07, C08, C57: the returned pair with topologies other than Star -/

set_option linter.unusedSectionVars false

namespace PySwarms

variable {n d : Nat} {K : Type} [Field K] [LinearOrder K] [Transc K] [FloorRing K]

/-- **C07**.  Any optimizer with a topology other than Star, from any state: if a call with
`iters > 0` returns `(c, p)` and the neighbour lists used at the end cover the swarm (or it is a
ring with `k = 1`), then `(c, p)` is matching and optimal. -/
theorem C07_covered (cfg : Config n d K) (hk : cfg.kind.top ≠ .star) (s s' : Opt n d K)
    (ev : Nat → Mat n d K → Except Err (Costs n K)) (iters : Nat) (hi : 0 < iters)
    (nproc : Option Nat) (env : Nat → Draw n d K) (c : XR K) (p : Vec d K)
    (ho : optimize cfg ev iters nproc env s = (s', .ok (c, p)))
    (hcov : (cfg.args.k = some 1 ∧ ∃ st, cfg.kind.top = .ring st) ∨
      ∃ nbr, s'.top.neighbor = some nbr ∧ ∀ j, ∃ i, j ∈ nbr i) :
    MatchingOptimal ev s s' c p := by
  obtain ⟨s1, hl, hs', hb, k, hkk, hp⟩ := optimize_ok cfg ev iters nproc env s s' c p ho
  have ht : s'.top = s1.top := by rw [hs']
  have he : s'.evals = s1.evals := by rw [hs']
  rw [ht] at hcov
  obtain ⟨E, h1, h2, h3, -, h4⟩ := covered_pair cfg hk ev env iters iters hi _ s1 rfl hl hcov
  have hcv : s1.swarm.bestCostVal = c := by simp [Swarm.bestCostVal, hb]
  rw [hcv] at h3 h4
  refine ⟨E, by rw [he, h1]; rfl, h2, h3, fun hinf => ?_⟩
  rw [hp]; exact h4 k hkk hinf

/-- **C07** (`cost_history`).  After each iteration whose neighbour lists cover the swarm, the
last entry of `cost_history` is the minimum of all costs evaluated so far in the call. -/
theorem C07_history_covered (cfg : Config n d K) (hk : cfg.kind.top ≠ .star) (s s1 : Opt n d K)
    (ev : Nat → Mat n d K → Except Err (Costs n K)) (iters t : Nat) (ht : 0 < t)
    (env : Nat → Draw n d K)
    (hl : loop cfg ev env iters t 0 [] (prepare cfg s) = (s1, .ok ()))
    (hcov : (cfg.args.k = some 1 ∧ ∃ st, cfg.kind.top = .ring st) ∨
      ∃ nbr, s1.top.neighbor = some nbr ∧ ∀ j, ∃ i, j ∈ nbr i) :
    ∃ E c, s1.evals = s.evals ++ E ∧ LogOf ev E ∧ s1.costHistory.getLast? = some c ∧
      IsMinOf c (allCosts E) := by
  obtain ⟨E, h1, h2, h3, h4, -⟩ := covered_pair cfg hk ev env iters t ht _ s1 rfl hl hcov
  exact ⟨E, _, h1, h2, h4, h3⟩

/-- **C07** (dynamic ring: LocalBestPSO by default, BinaryPSO always).  For a legal k-d tree, if
at most `k` particles coincide at any point of the last evaluated position matrix, the returned
pair is matching and optimal. -/
theorem C07_dynamic_ring (cfg : Config n d K) (hk : cfg.kind.top = .ring false) (k p : Nat)
    (ha : cfg.args.k = some k) (hap : cfg.args.p = some p)
    (dist : Vec d K → Vec d K → K) (hd : IsDist dist) (s s' : Opt n d K)
    (ev : Nat → Mat n d K → Except Err (Costs n K)) (iters : Nat) (hi : 0 < iters)
    (nproc : Option Nat) (env : Nat → Draw n d K)
    (hknn : ∀ t x, IsKnn dist k x ((env t).oracle.knn k p x)) (c : XR K) (y : Vec d K)
    (ho : optimize cfg ev iters nproc env s = (s', .ok (c, y)))
    (hco : ∀ x v, s'.evals.getLast? = some (x, v) →
      ∀ i, ((List.finRange n).filter fun j => x j = x i).length ≤ k) :
    MatchingOptimal ev s s' c y := by
  refine C07_covered cfg (by rw [hk]; simp) s s' ev iters hi nproc env c y ho ?_
  obtain ⟨s1, hl, hs', -⟩ := optimize_ok cfg ev iters nproc env s s' c y ho
  obtain ⟨j, t0, sw, E, v, hg, -, -, hev, -, -⟩ := loop_last cfg ev env iters iters 0 hi [] _ s1 hl
  obtain ⟨args, hca, hargs⟩ := callGbest_eq cfg (env j).oracle t0 sw
  have hargs := hargs (by rw [hk]; simp)
  rw [hca, hk] at hg
  simp only [computeGbest, hargs.1, hargs.2, ha, hap] at hg
  right
  have hnb : s1.top.neighbor = some ((env j).oracle.knn k p sw.position) := by
    obtain ⟨t1, h1, h2⟩ := ringGbest_cases hg
    have ht1 : t1.neighbor = some ((env j).oracle.knn k p sw.position) := by
      rcases h1 with ⟨h1, -⟩ | ⟨-, -, -, -, rfl⟩
      · cases h1
      · rfl
    rcases h2 with ⟨-, -, h2, -⟩ | ⟨-, h2, -⟩ <;> rw [h2] <;> exact ht1
  refine ⟨_, by rw [hs']; exact hnb, fun i => ⟨i, ?_⟩⟩
  refine self_mem_of_isKnn hd (hknn j sw.position) i (hco sw.position v ?_ i)
  rw [hs']; simp only; rw [hev]; simp

/-- **C07** (`k = n_particles`).  With as many neighbours as particles, on a newly constructed
LocalBestPSO (static or not) or BinaryPSO, coincidences do not matter. -/
theorem C07_all_neighbours (cfg : Config n d K) (st : Bool) (hk : cfg.kind.top = .ring st) (p : Nat)
    (ha : cfg.args.k = some n) (hap : cfg.args.p = some p)
    (dist : Vec d K → Vec d K → K) (s s' : Opt n d K) (hs : s.top.neighbor = none)
    (ev : Nat → Mat n d K → Except Err (Costs n K)) (iters : Nat) (hi : 0 < iters)
    (nproc : Option Nat) (env : Nat → Draw n d K)
    (hknn : ∀ t x, IsKnn dist n x ((env t).oracle.knn n p x)) (c : XR K) (y : Vec d K)
    (ho : optimize cfg ev iters nproc env s = (s', .ok (c, y))) :
    MatchingOptimal ev s s' c y := by
  obtain ⟨s1, hl, hs', -⟩ := optimize_ok cfg ev iters nproc env s s' c y ho
  have hcovers : ∀ t x, Covers ((env t).oracle.knn n p x) := by
    intro t x j
    obtain ⟨h1, h2, -⟩ := hknn t x j
    refine ⟨j, ?_⟩
    have hsub : (List.finRange n) ⊆ (env t).oracle.knn n p x j := by
      have hp := (List.subperm_of_subset h2 (l₂ := List.finRange n) (fun a _ => List.mem_finRange a))
      have := hp.perm_of_length_le (by simp [h1])
      exact this.symm.subset
    exact hsub (List.mem_finRange j)
  have hinv : TopInv Covers s1.top := by
    have := loop_inv cfg ev env iters (fun s => TopInv Covers s.top)
      (fun i q s' hs' => topInv_iterate Covers cfg (ev i) (env i) iters i q s' (by
        intro t sw ht
        obtain ⟨args, hca, hargs⟩ := callGbest_eq cfg (env i).oracle t sw
        have hargs := hargs (by rw [hk]; simp)
        rw [hca]
        refine topInv_computeGbest Covers _ args _ t sw covers_all ?_ ?_ ?_ ?_ ht
        · intro st' k' p' _ hk' hp'
          rw [hargs.1, ha] at hk'; rw [hargs.2, hap] at hp'
          cases hk'; cases hp'; exact hcovers i _
        · intro p' r h; rw [hk] at h; cases h
        · intro _ _ h; rw [hk] at h; cases h
        · intro _ _ _ h; rw [hk] at h; cases h) hs') iters 0 [] (startState cfg nproc s)
      (by intro nbr h; have : s.top.neighbor = some nbr := h; rw [hs] at this; cases this)
    rw [hl] at this; exact this
  refine C07_covered cfg (by rw [hk]; simp) s s' ev iters hi nproc env c y ho ?_
  right
  obtain ⟨j, t0, sw, E, v, hg, -, -, hev, -, -⟩ := loop_last cfg ev env iters iters 0 hi [] _ s1 hl
  obtain ⟨args, hca, hargs⟩ := callGbest_eq cfg (env j).oracle t0 sw
  have hargs := hargs (by rw [hk]; simp)
  rw [hca, hk] at hg
  simp only [computeGbest, hargs.1, hargs.2, ha, hap] at hg
  have hnb : s1.top.neighbor ≠ none := by
    obtain ⟨t1, h1, h2⟩ := ringGbest_cases hg
    have ht1 : t1.neighbor ≠ none := by
      rcases h1 with ⟨-, h1, rfl⟩ | ⟨-, -, -, -, rfl⟩
      · exact h1
      · simp
    rcases h2 with ⟨-, -, h2, -⟩ | ⟨-, h2, -⟩ <;> rw [h2] <;> exact ht1
  cases hnn : s1.top.neighbor with
  | none => exact absurd hnn hnb
  | some nbr => exact ⟨nbr, by rw [hs']; exact hnn, hinv nbr hnn⟩

/-- A LocalBestPSO with 3 particles on the line, `k = 2`, `p = 1`, bounds `[0, 10]`, strategy
`nearest`, initial positions 1, 2, 3 and initial velocity 150 (through `velocity_clamp`). -/
def Ex.lcfg : Config 3 1 ℚ where
  kind := .localBest false
  options := [("c1", 0), ("c2", 0), ("w", 1)]
  args := { k := some 2, p := some 1 }
  bounds := some (fun _ => 0, fun _ => 10)
  clamp := some (fun _ => 100, fun _ => 200)
  center := fun _ => 1
  initPos := some fun i _ => ((i : Nat) : ℚ) + 1
  bhStrategy := "nearest"

/-- A legal k-d tree for its two position matrices. -/
def Ex.ldraw : Draw 3 1 ℚ :=
  { Ex.draw 3 1 with
    oracle := { (Ex.draw 3 1).oracle with
      knn := fun _ _ x i =>
        if x 0 0 = x 1 0 ∧ x 1 0 = x 2 0 then [1, 2]
        else if i = 0 then [0, 1] else if i = 1 then [1, 0] else [2, 1] } }

/-- Non-vacuity of C07: one iteration of that optimizer, positions pairwise different. -/
example : (match construct Ex.lcfg (Ex.init 3 1) (Ex.init 3 1) with
    | .ok s =>
      match optimize Ex.lcfg (Ex.sphere 3 1) 1 none (fun _ => Ex.ldraw) s with
      | (s', .ok (c, p)) => decide (c = .fin 1 ∧ p 0 = 1 ∧ s'.evals.length = 1 ∧
          s'.top.neighbor.map (fun f => f 2) = some [2, 1])
      | _ => false
    | _ => false) = true := by decide +kernel

/-! ## C08 -/

/-- **C08** (what always holds).  For every topology other than Star, however the neighbour lists
look: the returned position is the best one evaluated by the call, and the returned cost is the
cost of some evaluation of the call (or `+inf`), never below the optimum. -/
theorem C08_position_optimal (cfg : Config n d K) (hk : cfg.kind.top ≠ .star)
    (s s' : Opt n d K) (ev : Nat → Mat n d K → Except Err (Costs n K)) (iters : Nat)
    (hi : 0 < iters) (nproc : Option Nat) (env : Nat → Draw n d K) (c : XR K) (p : Vec d K)
    (ho : optimize cfg ev iters nproc env s = (s', .ok (c, p))) :
    ∃ E m, s'.evals = s.evals ++ E ∧ LogOf ev E ∧ IsMinOf m (allCosts E) ∧
      (m ≠ XR.pinf → ∃ e ∈ E, ∃ i, e.1 i = p ∧ e.2 i = m) ∧
      (c = XR.pinf ∨ c ∈ allCosts E) ∧ XR.lt c m = false := by
  obtain ⟨s1, hl, hs', hb, k, hkk, hp⟩ := optimize_ok cfg ev iters nproc env s s' c p ho
  obtain ⟨E, h1, h2, h3⟩ := loop_log cfg ev env iters iters 0 [] (startState cfg nproc s)
  have hI : PInv s.evals s.swarm.pbestPos (startState cfg nproc s) :=
    ⟨[], by simp [startState, prepare], fun i => isPersonalBest_nil _⟩
  obtain ⟨E', h1', hpb'⟩ := loop_inv cfg ev env iters _
    (fun i q s hs => pInv_iterate cfg (ev i) (env i) iters i q s hs) iters 0 [] _ hI
  rw [hl] at h1 h1' hpb'
  simp only at h1 h1' hpb'
  have hst : (startState cfg nproc s).evals = s.evals := rfl
  rw [h1, hst] at h1'
  obtain rfl := List.append_cancel_left h1'
  have hnn : ∀ i, s1.swarm.pbestCost i ≠ XR.nan := fun i => isPersonalBest_ne_nan (hpb' i)
  rw [npArgmin_eq_some_iff _ hnn] at hkk
  have hmin : IsMinOf (s1.swarm.pbestCost k) (allCosts E) := by
    refine ⟨hnn k, ?_, ?_⟩
    · by_cases hinf : s1.swarm.pbestCost k = XR.pinf
      · left; exact hinf
      · right
        obtain ⟨e, he, _, h2⟩ := isPersonalBest_mem (hpb' k) hinf
        exact (mem_allCosts _ _).2 ⟨e, he, k, h2⟩
    · intro x hx
      obtain ⟨e, he, i, rfl⟩ := (mem_allCosts _ _).1 hx
      refine XR.not_lt_trans (hnn i) ?_ (hkk.1 i)
      exact isPersonalBest_not_below (hpb' i) (e.1 i, e.2 i) (List.mem_map.2 ⟨e, he, rfl⟩)
  obtain ⟨j, t0, sw, -, -, hg, e1, e2, -, -, -⟩ := loop_last cfg ev env iters iters 0 hi [] _ s1 hl
  obtain ⟨args, hca, -⟩ := callGbest_eq cfg (env j).oracle t0 sw
  rw [hca] at hg
  obtain ⟨i0, hi0⟩ := computeGbest_mem hk hg
  rw [e2, hb] at hi0
  have hi0 : c = s1.swarm.pbestCost i0 := Option.some.inj hi0
  refine ⟨E, _, by rw [hs']; exact h1, by simpa [LogOf] using h3, hmin, ?_, ?_, ?_⟩
  · intro hinf
    obtain ⟨e, he, h4, h5⟩ := isPersonalBest_mem (hpb' k) hinf
    exact ⟨e, he, k, by rw [h4, hp], h5⟩
  · by_cases hinf : c = XR.pinf
    · left; exact hinf
    · right
      rw [hi0] at hinf ⊢
      obtain ⟨e, he, _, h5⟩ := isPersonalBest_mem (hpb' i0) hinf
      exact (mem_allCosts _ _).2 ⟨e, he, i0, h5⟩
  · rw [hi0]; exact hkk.1 i0

/-- **C08** (witness).  A legal run of LocalBestPSO in which three particles coincide with `k = 2`:
the best cost rises from 1 to 4, and the call returns cost 4 with the position of cost 1. -/
theorem C08_coincident_witness :
    ∃ s0 s' c p, construct Ex.lcfg (Ex.init 3 1) (Ex.init 3 1) = .ok s0 ∧
      optimize Ex.lcfg (Ex.sphere 3 1) 2 none (fun _ => Ex.ldraw) s0 = (s', .ok (c, p)) ∧
      (∀ e ∈ s'.evals, IsKnn (fun x y => |x 0 - y 0|) 2 e.1 (Ex.ldraw.oracle.knn 2 1 e.1)) ∧
      s'.costHistory = [.fin 1, .fin 4] ∧ c = .fin 4 ∧ p 0 = 1 ∧
      .fin 1 ∈ allCosts s'.evals := by
  have h : (match construct Ex.lcfg (Ex.init 3 1) (Ex.init 3 1) with
    | .ok s =>
      match optimize Ex.lcfg (Ex.sphere 3 1) 2 none (fun _ => Ex.ldraw) s with
      | (s', .ok (c, p)) => decide ((∀ e ∈ s'.evals,
          ∀ i, (Ex.ldraw.oracle.knn 2 1 e.1 i).length = 2 ∧ (Ex.ldraw.oracle.knn 2 1 e.1 i).Nodup ∧
            (Ex.ldraw.oracle.knn 2 1 e.1 i).Pairwise
              (fun a b => |e.1 i 0 - e.1 a 0| ≤ |e.1 i 0 - e.1 b 0|) ∧
            ∀ a ∈ Ex.ldraw.oracle.knn 2 1 e.1 i, ∀ b, b ∉ Ex.ldraw.oracle.knn 2 1 e.1 i →
              |e.1 i 0 - e.1 a 0| ≤ |e.1 i 0 - e.1 b 0|) ∧
          s'.costHistory = [.fin 1, .fin 4] ∧ c = .fin 4 ∧ p 0 = 1 ∧
          .fin 1 ∈ allCosts s'.evals)
      | _ => false
    | _ => false) = true := by decide +kernel
  split at h
  · next s hs =>
    split at h
    · next s' c p ho =>
      have h := of_decide_eq_true h
      exact ⟨s, s', c, p, hs, ho, h.1, h.2⟩
    · cases h
  · cases h

/-! ## C57 -/

/-- **C57** (`Random`, static or dynamic).  From every reachable state, a returning call with
`iters > 0` returns a matching, optimal pair: a random graph always contains its own vertices. -/
theorem C57_random (cfg : Config n d K) (st : Bool) (hk : cfg.kind = .general (.random st))
    (s s' : Opt n d K) (hs : Reachable cfg s)
    (ev : Nat → Mat n d K → Except Err (Costs n K)) (iters : Nat) (hi : 0 < iters)
    (nproc : Option Nat) (env : Nat → Draw n d K) (c : XR K) (y : Vec d K)
    (ho : optimize cfg ev iters nproc env s = (s', .ok (c, y))) :
    MatchingOptimal ev s s' c y := by
  have hit : ∀ ev (r : Draw n d K) iters i q (s : Opt n d K), TopInv Covers s.top →
      TopInv Covers (iterate cfg ev r iters i q s).1.top := by
    intro ev r iters i q s hs
    refine topInv_iterate Covers cfg ev r iters i q s ?_ hs
    intro t sw ht
    unfold callGbest
    rw [hk]
    refine topInv_computeGbest Covers _ _ _ t sw covers_all ?_ ?_ ?_ ?_ ht
    · intro _ _ _ h; cases h
    · intro _ _ h; cases h
    · intro _ _ h; cases h
    · intro _ k a _ ha j
      exact ⟨j, randomNeighbors_refl ha j⟩
  have hop : ∀ ev iters nproc env (s : Opt n d K), TopInv Covers s.top →
      TopInv Covers (optimize cfg ev iters nproc env s).1.top := fun ev iters nproc env s h =>
    optimize_inv cfg ev iters nproc env (fun s => TopInv Covers s.top) (fun _ _ _ _ h => h)
      (fun _ h => h) (fun i q s h => hit _ _ _ _ _ _ h) s h
  have hinv0 : TopInv Covers s.top := by
    obtain ⟨r1, r2, s0, ops, hc, rfl⟩ := hs
    obtain ⟨sw, hsw, rfl⟩ := construct_ok cfg r1 r2 s0 hc
    have hI : TopInv Covers ({ swarm := sw } : Opt n d K).top := by intro nbr h; cases h
    generalize ({ swarm := sw } : Opt n d K) = s1 at hI
    clear hc ho
    induction ops generalizing s1 with
    | nil => exact hI
    | cons op ops ih =>
      apply ih
      cases op with
      | optimize ev iters nproc env => exact hop ev iters nproc env s1 hI
      | reset r =>
        simp only [stepOp, reset]
        split <;> exact hI
  have hinv := hop ev iters nproc env s hinv0
  rw [ho] at hinv
  simp only at hinv
  refine C07_covered cfg (by rw [hk]; simp [Kind.top]) s s' ev iters hi nproc env c y ho (Or.inr ?_)
  obtain ⟨s1, hl, hs', -⟩ := optimize_ok cfg ev iters nproc env s s' c y ho
  obtain ⟨j, t0, sw, E, v, hg, -⟩ := loop_last cfg ev env iters iters 0 hi [] _ s1 hl
  unfold callGbest at hg
  rw [hk] at hg
  simp only [computeGbest] at hg
  split at hg
  · obtain ⟨-, nbr, h1, -⟩ := randomGbest_cases hg
    have h1' : s'.top.neighbor = some nbr := by rw [hs']; exact h1
    exact ⟨nbr, h1', hinv nbr h1'⟩
  · cases hg

/-- **C57** (`Pyramid`).  With a triangulation in which adjacency is symmetric and every particle
has a neighbour, a returning call of a dynamic Pyramid (or of a static one on a newly constructed
optimizer) returns a matching, optimal pair. -/
theorem C57_pyramid (cfg : Config n d K) (st : Bool) (hk : cfg.kind = .general (.pyramid st))
    (s s' : Opt n d K) (hs : st = false ∨ s.top.neighbor = none)
    (ev : Nat → Mat n d K → Except Err (Costs n K)) (iters : Nat) (hi : 0 < iters)
    (nproc : Option Nat) (env : Nat → Draw n d K)
    (hdel : ∀ t x nbr, (env t).oracle.delaunay x = .ok nbr →
      (∀ i, nbr i ≠ []) ∧ ∀ i j, j ∈ nbr i → i ∈ nbr j)
    (c : XR K) (y : Vec d K) (ho : optimize cfg ev iters nproc env s = (s', .ok (c, y))) :
    MatchingOptimal ev s s' c y := by
  have hcov : ∀ t x nbr, (env t).oracle.delaunay x = .ok nbr → Covers nbr := by
    intro t x nbr h j
    obtain ⟨h1, h2⟩ := hdel t x nbr h
    cases hj : nbr j with
    | nil => exact absurd hj (h1 j)
    | cons a l => exact ⟨a, h2 j a (by rw [hj]; simp)⟩
  refine C07_covered cfg (by rw [hk]; simp [Kind.top]) s s' ev iters hi nproc env c y ho (Or.inr ?_)
  obtain ⟨s1, hl, hs', -⟩ := optimize_ok cfg ev iters nproc env s s' c y ho
  obtain ⟨j, t0, sw, E, v, hg, -⟩ := loop_last cfg ev env iters iters 0 hi [] _ s1 hl
  unfold callGbest at hg
  rw [hk] at hg
  simp only [computeGbest] at hg
  rw [hs']
  simp only
  rcases pyramidGbest_cases hg with ⟨-, ht, -⟩ | ⟨-, h1, nbr, h2, -⟩
  · exact ⟨_, by rw [ht], covers_all⟩
  · refine ⟨nbr, h2, ?_⟩
    rcases hs with rfl | hs
    · rcases h1 with ⟨h1, -⟩ | ⟨-, nbr', h3, h4⟩
      · cases h1
      · rw [h4] at h2; cases h2; exact hcov _ _ _ h3
    · have hinv : TopInv Covers s1.top := by
        have := loop_inv cfg ev env iters (fun s => TopInv Covers s.top)
          (fun i q s' hs' => topInv_iterate Covers cfg (ev i) (env i) iters i q s' (by
            intro t sw ht
            unfold callGbest
            rw [hk]
            refine topInv_computeGbest Covers _ _ _ t sw covers_all ?_ ?_ ?_ ?_ ht
            · intro _ _ _ h; cases h
            · intro _ _ h; cases h
            · intro _ nbr _ h; exact hcov _ _ _ h
            · intro _ _ _ h; cases h) hs') iters 0 [] (startState cfg nproc s)
          (by intro nbr h; have : s.top.neighbor = some nbr := h; rw [hs] at this; cases this)
        rw [hl] at this; exact this
      exact hinv nbr h2

/-- All triangulations met by a call give every particle a neighbour, and adjacency is symmetric. -/
def Op.Triangulated : Op n d K → Prop
  | .optimize _ _ _ env => ∀ t x nbr, (env t).oracle.delaunay x = .ok nbr →
      (∀ i, nbr i ≠ []) ∧ ∀ i j, j ∈ nbr i → i ∈ nbr j
  | .reset _ => True

/-- **C57** (`Pyramid`, any history).  Static or dynamic, after any sequence of calls: if the
triangulations met so far and in this call have symmetric adjacency and give every particle a
neighbour, a returning call returns a matching, optimal pair. -/
theorem C57_pyramid_history (cfg : Config n d K) (st : Bool)
    (hk : cfg.kind = .general (.pyramid st)) (r1 r2 : InitDraw n d K) (s0 s' : Opt n d K)
    (hc : construct cfg r1 r2 = .ok s0) (ops : List (Op n d K))
    (hops : ∀ op ∈ ops, op.Triangulated)
    (ev : Nat → Mat n d K → Except Err (Costs n K)) (iters : Nat) (hi : 0 < iters)
    (nproc : Option Nat) (env : Nat → Draw n d K)
    (hdel : ∀ t x nbr, (env t).oracle.delaunay x = .ok nbr →
      (∀ i, nbr i ≠ []) ∧ ∀ i j, j ∈ nbr i → i ∈ nbr j)
    (c : XR K) (y : Vec d K)
    (ho : optimize cfg ev iters nproc env (runOps cfg s0 ops) = (s', .ok (c, y))) :
    MatchingOptimal ev (runOps cfg s0 ops) s' c y := by
  have hop : ∀ ev iters nproc (env : Nat → Draw n d K),
      (∀ t x nbr, (env t).oracle.delaunay x = .ok nbr →
        (∀ i, nbr i ≠ []) ∧ ∀ i j, j ∈ nbr i → i ∈ nbr j) →
      ∀ s : Opt n d K, TopInv Covers s.top →
        TopInv Covers (optimize cfg ev iters nproc env s).1.top := by
    intro ev iters nproc env hdel s h
    refine optimize_inv cfg ev iters nproc env (fun s => TopInv Covers s.top) (fun _ _ _ _ h => h)
      (fun _ h => h) (fun i q s h => ?_) s h
    refine topInv_iterate Covers cfg (ev i) (env i) iters i q s ?_ h
    intro t sw ht
    unfold callGbest
    rw [hk]
    refine topInv_computeGbest Covers _ _ _ t sw covers_all ?_ ?_ ?_ ?_ ht
    · intro _ _ _ h; cases h
    · intro _ _ h; cases h
    · intro _ nbr _ h j
      obtain ⟨h1, h2⟩ := hdel _ _ nbr h
      cases hj : nbr j with
      | nil => exact absurd hj (h1 j)
      | cons a l => exact ⟨a, h2 j a (by rw [hj]; simp)⟩
    · intro _ _ _ h; cases h
  have hinv0 : TopInv Covers (runOps cfg s0 ops).top := by
    obtain ⟨sw, hsw, rfl⟩ := construct_ok cfg r1 r2 s0 hc
    have hI : TopInv Covers ({ swarm := sw } : Opt n d K).top := by intro nbr h; cases h
    generalize ({ swarm := sw } : Opt n d K) = s1 at hI
    clear hc ho
    induction ops generalizing s1 with
    | nil => exact hI
    | cons op ops ih =>
      have hp := hops op (List.mem_cons_self ..)
      refine ih (fun o ho => hops o (List.mem_cons_of_mem _ ho)) _ ?_
      cases op with
      | optimize ev iters nproc env => exact hop ev iters nproc env hp s1 hI
      | reset r =>
        simp only [stepOp, reset]
        split <;> exact hI
  have hinv := hop ev iters nproc env hdel _ hinv0
  rw [ho] at hinv
  simp only at hinv
  refine C07_covered cfg (by rw [hk]; simp [Kind.top]) _ s' ev iters hi nproc env c y ho (Or.inr ?_)
  obtain ⟨s1, hl, hs', -⟩ := optimize_ok cfg ev iters nproc env _ s' c y ho
  obtain ⟨j, t0, sw, E, v, hg, -⟩ := loop_last cfg ev env iters iters 0 hi [] _ s1 hl
  unfold callGbest at hg
  rw [hk] at hg
  simp only [computeGbest] at hg
  have hn : ∃ nbr, s'.top.neighbor = some nbr := by
    rw [hs']
    simp only
    rcases pyramidGbest_cases hg with ⟨-, ht, -⟩ | ⟨-, -, nbr, h2, -⟩
    · exact ⟨_, by rw [ht]⟩
    · exact ⟨nbr, h2⟩
  obtain ⟨nbr, h2⟩ := hn
  exact ⟨nbr, h2, hinv nbr h2⟩

/-- Non-vacuity of C57: runs with both topologies. -/
example : (match construct { Ex.gcfg 3 1 with kind := .general (.random true), args := { k := some 1 } }
        (Ex.init 3 1) (Ex.init 3 1),
      construct { Ex.gcfg 3 1 with kind := .general (.pyramid false) } (Ex.init 3 1) (Ex.init 3 1) with
    | .ok s, .ok s2 =>
      match optimize { Ex.gcfg 3 1 with kind := .general (.random true), args := { k := some 1 } }
          (Ex.drift 3) 3 none (fun _ => Ex.draw 3 1) s,
        optimize { Ex.gcfg 3 1 with kind := .general (.pyramid false) }
          (Ex.sphere 3 1) 3 none (fun _ => Ex.draw 3 1) s2 with
      | (_, .ok (c, p)), (_, .ok (c2, _)) => decide (c = .fin 0 ∧ p 0 = 0 ∧ c2 = .fin 0)
      | _, _ => false
    | _, _ => false) = true := by decide +kernel

end PySwarms
