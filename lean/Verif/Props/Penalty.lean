import Verif.Props.Local
import Verif.Props.Best
import Verif.Props.Outcome

/-! # C116: constraints handled by penalties -/

set_option linter.unusedSectionVars false

namespace PySwarms

variable {n d : Nat} {K : Type} [Field K] [LinearOrder K] [IsStrictOrderedRing K] [Transc K]
  [FloorRing K]

/-! ## Specification -/

/-- `c` is a penalty: `nan`, or above the cost `f` of every allowed position (such as `+inf`). -/
def IsPenalty (ok : Vec d K → Prop) (f : Vec d K → K) (c : XR K) : Prop :=
  c = .nan ∨ ∀ y, ok y → XR.lt (.fin (f y)) c = true

/-- Every call of the objective returns the cost `f` for the particles at allowed positions and some
penalty for the others.  The penalties may depend on anything. -/
def Penalised (ok : Vec d K → Prop) (f : Vec d K → K)
    (ev : Nat → Mat n d K → Except Err (Costs n K)) : Prop :=
  ∀ k x v, ev k x = .ok v → ∀ i, (ok (x i) → v i = .fin (f (x i))) ∧
    (¬ ok (x i) → IsPenalty ok f (v i))

/-- `(c, p)` is what a constrained search should return.  If some evaluated position is allowed then
`p` is an allowed one with the lowest cost, and `c` is its cost.  If none is, then `c` says so: it is
above the cost of every allowed position. -/
def BestAllowed (ok : Vec d K → Prop) (f : Vec d K → K) (log : List (Vec d K)) (c : XR K)
    (p : Vec d K) : Prop :=
  ((∃ x ∈ log, ok x) → ok p ∧ p ∈ log ∧ c = .fin (f p) ∧ ∀ x ∈ log, ok x → f p ≤ f x) ∧
  ((∀ x ∈ log, ¬ ok x) → ∀ y, ok y → XR.lt (.fin (f y)) c = true)

/-- The positions evaluated in a log, particle after particle. -/
def positionsOf (E : List (Mat n d K × Costs n K)) : List (Vec d K) :=
  E.flatMap fun e => (List.finRange n).map e.1

/-! ## Lemmas -/

theorem mem_positionsOf (E : List (Mat n d K × Costs n K)) (x : Vec d K) :
    x ∈ positionsOf E ↔ ∃ e ∈ E, ∃ i, e.1 i = x := by
  simp [positionsOf]

theorem penalised_log {ok : Vec d K → Prop} {f : Vec d K → K}
    {ev : Nat → Mat n d K → Except Err (Costs n K)}
    (h : Penalised ok f ev) {E : List (Mat n d K × Costs n K)} (hl : LogOf ev E) {e} (he : e ∈ E)
    (i : Fin n) : (ok (e.1 i) → e.2 i = .fin (f (e.1 i))) ∧ (¬ ok (e.1 i) → IsPenalty ok f (e.2 i)) := by
  obtain ⟨k, hk, rfl⟩ := List.mem_iff_getElem.1 he
  exact h k _ _ (hl k hk) i

/-- The core: a log of pairs (position, cost), each as the objective promises. -/
theorem bestAllowed_of {ok : Vec d K → Prop} {f : Vec d K → K} {log : List (Vec d K × XR K)}
    (h : ∀ e ∈ log, (ok e.1 → e.2 = .fin (f e.1)) ∧ (¬ ok e.1 → IsPenalty ok f e.2)) {c : XR K}
    {p : Vec d K} (hnan : c ≠ .nan) (hm : c ≠ .pinf → (p, c) ∈ log)
    (hb : ∀ e ∈ log, XR.lt e.2 c = false) : BestAllowed ok f (log.map (·.1)) c p := by
  refine ⟨?_, ?_⟩
  · rintro ⟨x, hx, hok⟩
    obtain ⟨e, he, rfl⟩ := List.mem_map.1 hx
    have h0 := hb e he
    rw [(h e he).1 hok] at h0
    have hne : c ≠ .pinf := by
      rintro rfl
      simp [XR.lt] at h0
    have hpc := hm hne
    have hokp : ok p := by
      by_contra hno
      rcases (h _ hpc).2 hno with hc | hc
      · exact hnan hc
      · rw [hc _ hok] at h0
        cases h0
    have hc : c = .fin (f p) := (h _ hpc).1 hokp
    refine ⟨hokp, List.mem_map.2 ⟨_, hpc, rfl⟩, hc, fun x hx hokx => ?_⟩
    obtain ⟨e', he', rfl⟩ := List.mem_map.1 hx
    have := hb e' he'
    rw [(h e' he').1 hokx, hc] at this
    simpa [XR.lt] using this
  · intro hno y hy
    by_cases hc : c = .pinf
    · rw [hc]; rfl
    · have hpc := hm hc
      have hnp : ¬ ok p := hno p (List.mem_map.2 ⟨_, hpc, rfl⟩)
      rcases (h _ hpc).2 hnp with h' | h'
      · exact absurd h' hnan
      · exact h' y hy

/-- All pairs of a log. -/
def pairsOf (E : List (Mat n d K × Costs n K)) : List (Vec d K × XR K) :=
  E.flatMap fun e => (List.finRange n).map fun i => (e.1 i, e.2 i)

theorem mem_pairsOf (E : List (Mat n d K × Costs n K)) (q : Vec d K × XR K) :
    q ∈ pairsOf E ↔ ∃ e ∈ E, ∃ i, (e.1 i, e.2 i) = q := by
  simp [pairsOf]

theorem pairsOf_fst (E : List (Mat n d K × Costs n K)) :
    (pairsOf E).map (·.1) = positionsOf E := by
  simp [pairsOf, positionsOf, List.map_flatMap, Function.comp_def]

theorem bestAllowed_log {ok : Vec d K → Prop} {f : Vec d K → K}
    {E : List (Mat n d K × Costs n K)}
    (h : ∀ e ∈ E, ∀ i, (ok (e.1 i) → e.2 i = .fin (f (e.1 i))) ∧
      (¬ ok (e.1 i) → IsPenalty ok f (e.2 i))) {c : XR K}
    {p : Vec d K} (hnan : c ≠ .nan) (hm : c ≠ .pinf → ∃ e ∈ E, ∃ i, e.1 i = p ∧ e.2 i = c)
    (hb : ∀ e ∈ E, ∀ i, XR.lt (e.2 i) c = false) : BestAllowed ok f (positionsOf E) c p := by
  rw [← pairsOf_fst]
  refine bestAllowed_of ?_ hnan (fun hc => ?_) ?_
  · intro q hq
    obtain ⟨e, he, i, rfl⟩ := (mem_pairsOf E q).1 hq
    exact h e he i
  · obtain ⟨e, he, i, hi, hi'⟩ := hm hc
    exact (mem_pairsOf E _).2 ⟨e, he, i, by rw [hi, hi']⟩
  · intro q hq
    obtain ⟨e, he, i, rfl⟩ := (mem_pairsOf E q).1 hq
    exact hb e he i

theorem bestAllowed_matching {ok : Vec d K → Prop} {f : Vec d K → K}
    {ev : Nat → Mat n d K → Except Err (Costs n K)} (h : Penalised ok f ev) {s s' : Opt n d K}
    {c : XR K} {p : Vec d K} (hm : MatchingOptimal ev s s' c p) :
    ∃ E, s'.evals = s.evals ++ E ∧ BestAllowed ok f (positionsOf E) c p := by
  obtain ⟨E, hE, hl, hmin, hpair⟩ := hm
  exact ⟨E, hE, bestAllowed_log (fun e he i => penalised_log h hl he i) hmin.1 hpair fun e he i =>
    hmin.2.2 _ ((mem_allCosts _ _).2 ⟨e, he, i, rfl⟩)⟩

/-! ## C116 -/

/-- GlobalBestPSO (and any optimizer with the Star topology), first call after construction or
reset. -/
theorem C116_global (hn : 0 < n) (cfg : Config n d K) (hk : cfg.kind.isStar) (s : Opt n d K)
    (hs : Fresh cfg s) (hr : Reachable cfg s) (ok : Vec d K → Prop) (f : Vec d K → K)
    (ev : Nat → Mat n d K → Except Err (Costs n K)) (hpen : Penalised ok f ev) (iters : Nat)
    (nproc : Option Nat) (env : Nat → Draw n d K) (s' : Opt n d K) (c : XR K) (p : Vec d K)
    (ho : optimize cfg ev iters nproc env s = (s', .ok (c, p))) :
    BestAllowed ok f (positionsOf s'.evals) c p := by
  obtain ⟨h1, h2, h3⟩ := C05_first_call hn cfg hk s hs ev iters nproc env s' c p ho
  exact bestAllowed_log (fun e he i => penalised_log hpen h1 he i)
    (C02_returned_not_nan cfg s hr ev iters nproc env s' c p ho) (fun _ => h2) h3

/-- With infinite (or `nan`) penalties GlobalBestPSO needs an allowed position among the initial
ones: otherwise, in a problem of dimension at least 2, the first call raises an exception, namely
`ValueError` with the usual options. -/
theorem C116_start (cfg : Config n d K) (hk : cfg.kind.isStar) (hn : 0 < n) (hd : 2 ≤ d)
    (s : Opt n d K) (hf : Fresh cfg s) (hr : Reachable cfg s) (ok : Vec d K → Prop)
    (f : Vec d K → K) (ev : Nat → Mat n d K → Except Err (Costs n K))
    (hev : ∀ k x, ∃ v, ev k x = .ok v ∧ ∀ i, (ok (x i) → v i = .fin (f (x i))) ∧
      (¬ ok (x i) → v i = .nan ∨ v i = .pinf))
    (iters : Nat) (hit : 1 ≤ iters) (nproc : Option Nat) (env : Nat → Draw n d K)
    (hno : ∀ i, ¬ ok (s.swarm.position i)) :
    (∀ v, (optimize cfg ev iters nproc env s).2 ≠ .ok v) ∧
    (cfg.ohStrategy = [] → (∀ key ∈ ["c1", "c2", "w"], ∃ v, (key, v) ∈ cfg.options) →
      (optimize cfg ev iters nproc env s).2 = .error .valueError) := by
  obtain ⟨v, hv, hvi⟩ := hev 0 s.swarm.position
  exact C32_star_all_inf cfg hk hn hd s hf hr ev iters hit nproc env v hv fun i => (hvi i).2 (hno i)

/-- LocalBestPSO and BinaryPSO, any call: if at most `k` particles coincide at the end. -/
theorem C116_local (cfg : Config n d K) (hk : cfg.kind.top = .ring false) (k p : Nat)
    (ha : cfg.args.k = some k) (hap : cfg.args.p = some p)
    (dist : Vec d K → Vec d K → K) (hd : IsDist dist) (s s' : Opt n d K)
    (ok : Vec d K → Prop) (f : Vec d K → K) (ev : Nat → Mat n d K → Except Err (Costs n K))
    (hpen : Penalised ok f ev) (iters : Nat) (hi : 0 < iters)
    (nproc : Option Nat) (env : Nat → Draw n d K)
    (hknn : ∀ t x, IsKnn dist k x ((env t).oracle.knn k p x)) (c : XR K) (y : Vec d K)
    (ho : optimize cfg ev iters nproc env s = (s', .ok (c, y)))
    (hco : ∀ x v, s'.evals.getLast? = some (x, v) →
      ∀ i, ((List.finRange n).filter fun j => x j = x i).length ≤ k) :
    ∃ E, s'.evals = s.evals ++ E ∧ BestAllowed ok f (positionsOf E) c y :=
  bestAllowed_matching hpen
    (C07_dynamic_ring cfg hk k p ha hap dist hd s s' ev iters hi nproc env hknn c y ho hco)

/-- GeneralOptimizerPSO with the Random topology, any call of any history. -/
theorem C116_random (cfg : Config n d K) (st : Bool) (hk : cfg.kind = .general (.random st))
    (s s' : Opt n d K) (hs : Reachable cfg s) (ok : Vec d K → Prop) (f : Vec d K → K)
    (ev : Nat → Mat n d K → Except Err (Costs n K)) (hpen : Penalised ok f ev) (iters : Nat)
    (hi : 0 < iters) (nproc : Option Nat) (env : Nat → Draw n d K) (c : XR K) (y : Vec d K)
    (ho : optimize cfg ev iters nproc env s = (s', .ok (c, y))) :
    ∃ E, s'.evals = s.evals ++ E ∧ BestAllowed ok f (positionsOf E) c y :=
  bestAllowed_matching hpen (C57_random cfg st hk s s' hs ev iters hi nproc env c y ho)

/-- GeneralOptimizerPSO with the Pyramid topology. -/
theorem C116_pyramid (cfg : Config n d K) (st : Bool) (hk : cfg.kind = .general (.pyramid st))
    (s s' : Opt n d K) (hs : st = false ∨ s.top.neighbor = none) (ok : Vec d K → Prop)
    (f : Vec d K → K) (ev : Nat → Mat n d K → Except Err (Costs n K)) (hpen : Penalised ok f ev)
    (iters : Nat) (hi : 0 < iters) (nproc : Option Nat) (env : Nat → Draw n d K)
    (hdel : ∀ t x nbr, (env t).oracle.delaunay x = .ok nbr →
      (∀ i, nbr i ≠ []) ∧ ∀ i j, j ∈ nbr i → i ∈ nbr j)
    (c : XR K) (y : Vec d K) (ho : optimize cfg ev iters nproc env s = (s', .ok (c, y))) :
    ∃ E, s'.evals = s.evals ++ E ∧ BestAllowed ok f (positionsOf E) c y :=
  bestAllowed_matching hpen
    (C57_pyramid cfg st hk s s' hs ev iters hi nproc env hdel c y ho)

/-- The personal bests, for every optimizer and any call, also one that raises: the personal best of
a particle is the best allowed position it has visited in this call, if there is one. -/
theorem C116_personal_best (cfg : Config n d K) (ok : Vec d K → Prop) (f : Vec d K → K)
    (ev : Nat → Mat n d K → Except Err (Costs n K)) (hpen : Penalised ok f ev)
    (env : Nat → Draw n d K) (iters : Nat) (nproc : Option Nat) (hp : nproc ≠ some 0)
    (s s' : Opt n d K) (hr : Reachable cfg s) (hs' : s' = (optimize cfg ev iters nproc env s).1) :
    ∃ E, s'.evals = s.evals ++ E ∧ ∀ i,
      BestAllowed ok f (E.map fun e => e.1 i) (s'.swarm.pbestCost i) (s'.swarm.pbestPos i) := by
  subst hs'
  obtain ⟨E, hE, hl, -, hpb⟩ := C01_personal_best cfg ev env iters nproc hp s
  have hnn := (noNan_optimize cfg ev iters nproc env s (noNan_reachable cfg s hr)).pb
  refine ⟨E, hE, fun i => ?_⟩
  have hmap : (E.map fun e => e.1 i) = (particleLog E i).map (·.1) := by
    simp [particleLog, Function.comp_def]
  rw [hmap]
  refine bestAllowed_of ?_ (hnn i) (fun hc => ?_) fun e he => isPersonalBest_not_below (hpb i) e he
  · intro q hq
    obtain ⟨e, he, rfl⟩ := List.mem_map.1 hq
    exact penalised_log hpen hl he i
  · obtain ⟨e, he, hx, hy⟩ := isPersonalBest_mem (hpb i) hc
    exact List.mem_map.2 ⟨e, he, by rw [hx, hy]⟩

/-- `cost_history` of GlobalBestPSO tells when the first allowed position was found: entry `t` is the
lowest cost of the allowed positions evaluated until then if there are any, and above the cost of
every allowed position otherwise.  Over any history of calls since the last reset. -/
theorem C116_history (hn : 0 < n) (cfg : Config n d K) (hk : cfg.kind.isStar) (s : Opt n d K)
    (h : Reachable cfg s) (ok : Vec d K → Prop) (f : Vec d K → K)
    (hpen : ∀ e ∈ s.evals, ∀ i, (ok (e.1 i) → e.2 i = .fin (f (e.1 i))) ∧
      (¬ ok (e.1 i) → IsPenalty ok f (e.2 i)))
    (t : Nat) (ht : t < s.costHistory.length) :
    ∃ p, BestAllowed ok f (positionsOf (s.evals.take (t + 1))) s.costHistory[t] p := by
  obtain ⟨hlen, hmin⟩ := C04_cost_history_running_min hn cfg hk s h
  obtain ⟨hnan, hmem, hle⟩ := hmin t ht
  have hp : ∃ p, s.costHistory[t] ≠ .pinf →
      ∃ e ∈ s.evals.take (t + 1), ∃ i, e.1 i = p ∧ e.2 i = s.costHistory[t] := by
    rcases hmem with hc | hm
    · exact ⟨fun _ => 0, fun h => absurd hc h⟩
    · obtain ⟨e, he, i, hei⟩ := (mem_allCosts _ _).1 hm
      exact ⟨e.1 i, fun _ => ⟨e, he, i, rfl, hei⟩⟩
  obtain ⟨p, hp⟩ := hp
  exact ⟨p, bestAllowed_log (fun e he i => hpen e (List.mem_of_mem_take he) i) hnan hp
    fun e he i => hle _ ((mem_allCosts _ _).2 ⟨e, he, i, rfl⟩)⟩

/-! ## Examples -/

/-- The cost is the coordinate, positions above 1/2 are allowed, the others cost `pen`. -/
def aboveHalf (pen : XR ℚ) : Nat → Mat 2 1 ℚ → Except Err (Costs 2 ℚ) :=
  fun _ x => .ok fun i => if 1 / 2 < x i 0 then .fin (x i 0) else pen

theorem aboveHalf_penalised : Penalised (fun v : Vec 1 ℚ => 1 / 2 < v 0) (fun v => v 0)
    (aboveHalf .pinf) := by
  intro k x v h i
  cases h
  refine ⟨fun h => if_pos h, fun h => .inr fun y _ => ?_⟩
  simp only [if_neg h]
  rfl

/-- Evaluated positions and result of a GlobalBestPSO with two particles. -/
def seenPenalised (ev : Nat → Mat 2 1 ℚ → Except Err (Costs 2 ℚ)) :
    List (List ℚ) × Option (ℚ × ℚ) :=
  match construct (Ex.gcfg 2 1) (Ex.init 2 1) (Ex.init 2 1) with
  | .ok s =>
    match optimize (Ex.gcfg 2 1) ev 1 none (fun _ => Ex.draw 2 1) s with
    | (s', .ok (.fin c, p)) =>
      (s'.evals.map fun e => (List.finRange 2).map fun i => e.1 i 0, some (c, p 0))
    | _ => ([], none)
  | _ => ([], none)

/-- Non-vacuity: of the evaluated positions 0 and 1 the allowed one is returned.  With a penalty below
the cost of an allowed position (here 1/2 < 1) the position that is not allowed is returned. -/
example : seenPenalised (aboveHalf .pinf) = ([[0, 1]], some (1, 1)) ∧
    seenPenalised (aboveHalf (.fin 2)) = ([[0, 1]], some (1, 1)) ∧
    seenPenalised (aboveHalf (.fin (1 / 2))) = ([[0, 1]], some (1 / 2, 0)) := by
  decide +kernel

end PySwarms
