import Verif.Props.Local
import Verif.Props.Best

/-! # C114: objectives that are known only approximately -/

set_option linter.unusedSectionVars false

namespace PySwarms

variable {n d : Nat} {K : Type} [Field K] [LinearOrder K] [IsStrictOrderedRing K] [Transc K]
  [FloorRing K]

/-! ## Specification -/

/-- The `k`-th call of the objective returns, for each particle, the true cost `f` of its position
with an error between `-a` and `b`.  The errors may differ from call to call and from particle to
particle: noise, a simulation of limited accuracy, an objective that changes with time. -/
def Noisy (f : Vec d K → K) (a b : K) (ev : Nat → Mat n d K → Except Err (Costs n K)) : Prop :=
  ∀ k x v, ev k x = .ok v → ∀ i, ∃ q, v i = .fin q ∧ f (x i) - a ≤ q ∧ q ≤ f (x i) + b

/-- `c` is, up to the error, the true cost of `p`, and no evaluated position has a true cost lower
than that of `p` by more than the spread `a + b` of the error. -/
def NearBest (f : Vec d K → K) (a b : K) (E : List (Mat n d K × Costs n K)) (c : XR K)
    (p : Vec d K) : Prop :=
  (∃ q, c = .fin q ∧ f p - a ≤ q ∧ q ≤ f p + b) ∧ ∀ e ∈ E, ∀ i, f p ≤ f (e.1 i) + (a + b)

/-! ## Lemmas -/

theorem noisy_log {f : Vec d K → K} {a b : K} {ev : Nat → Mat n d K → Except Err (Costs n K)}
    (h : Noisy f a b ev) {E : List (Mat n d K × Costs n K)} (hl : LogOf ev E) {e} (he : e ∈ E)
    (i : Fin n) : ∃ q, e.2 i = .fin q ∧ f (e.1 i) - a ≤ q ∧ q ≤ f (e.1 i) + b := by
  obtain ⟨k, hk, rfl⟩ := List.mem_iff_getElem.1 he
  exact h k _ _ (hl k hk) i

theorem nearBest_of {f : Vec d K → K} {a b : K} {ev : Nat → Mat n d K → Except Err (Costs n K)}
    (h : Noisy f a b ev) {E : List (Mat n d K × Costs n K)} (hl : LogOf ev E) {c : XR K}
    {p : Vec d K} (hm : ∃ e ∈ E, ∃ i, e.1 i = p ∧ e.2 i = c)
    (hb : ∀ e ∈ E, ∀ i, XR.lt (e.2 i) c = false) : NearBest f a b E c p := by
  obtain ⟨e, he, i, rfl, rfl⟩ := hm
  obtain ⟨q, hq, h1, h2⟩ := noisy_log h hl he i
  refine ⟨⟨q, hq, h1, h2⟩, fun e' he' j => ?_⟩
  obtain ⟨q', hq', h1', h2'⟩ := noisy_log h hl he' j
  have := hb e' he' j
  rw [hq, hq'] at this
  simp only [XR.lt, decide_eq_false_iff_not, not_lt] at this
  linarith

theorem nearBest_matching {f : Vec d K → K} {a b : K} (cfg : Config n d K)
    {ev : Nat → Mat n d K → Except Err (Costs n K)} (h : Noisy f a b ev) {s s' : Opt n d K}
    {iters : Nat} (hi : 0 < iters) {nproc env} {c : XR K} {p : Vec d K}
    (ho : optimize cfg ev iters nproc env s = (s', .ok (c, p))) (hm : MatchingOptimal ev s s' c p) :
    ∃ E, s'.evals = s.evals ++ E ∧ E ≠ [] ∧ NearBest f a b E c p := by
  obtain ⟨E, hE, hl, hmin, hpair⟩ := hm
  obtain ⟨s1, hloop, hs', -, k, -, -⟩ := optimize_ok cfg ev iters nproc env s s' c p ho
  obtain ⟨j, t0, sw, E0, v, -, -, -, hev, -, -⟩ :=
    loop_last cfg ev env iters iters 0 hi [] _ s1 hloop
  have he : s'.evals = s1.evals := by rw [hs']
  have h0 : (startState cfg nproc s).evals = s.evals := rfl
  have hne : E ≠ [] := by
    rintro rfl
    rw [he, hev, h0] at hE
    have := congrArg List.length hE
    simp at this
  have hall : ∀ e ∈ E, ∀ i, XR.lt (e.2 i) c = false := fun e he i =>
    hmin.2.2 _ ((mem_allCosts _ _).2 ⟨e, he, i, rfl⟩)
  refine ⟨E, hE, hne, nearBest_of h hl (hpair ?_) hall⟩
  rintro rfl
  obtain ⟨e, he⟩ := List.exists_mem_of_ne_nil E hne
  obtain ⟨q, hq, -, -⟩ := noisy_log h hl he k
  have := hall e he k
  rw [hq] at this
  simp [XR.lt] at this

/-! ## C114 -/

/-- GlobalBestPSO (and any optimizer with the Star topology), first call after construction or
reset. -/
theorem C114_global (hn : 0 < n) (cfg : Config n d K) (hk : cfg.kind.isStar) (s : Opt n d K)
    (hs : Fresh cfg s) (f : Vec d K → K) (a b : K)
    (ev : Nat → Mat n d K → Except Err (Costs n K)) (hnoise : Noisy f a b ev) (iters : Nat)
    (nproc : Option Nat) (env : Nat → Draw n d K) (s' : Opt n d K) (c : XR K) (p : Vec d K)
    (ho : optimize cfg ev iters nproc env s = (s', .ok (c, p))) :
    NearBest f a b s'.evals c p := by
  obtain ⟨h1, h2, h3⟩ := C05_first_call hn cfg hk s hs ev iters nproc env s' c p ho
  exact nearBest_of hnoise h1 h2 h3

/-- LocalBestPSO and BinaryPSO, any call: if at most `k` particles coincide at the end. -/
theorem C114_local (cfg : Config n d K) (hk : cfg.kind.top = .ring false) (k p : Nat)
    (ha : cfg.args.k = some k) (hap : cfg.args.p = some p)
    (dist : Vec d K → Vec d K → K) (hd : IsDist dist) (s s' : Opt n d K)
    (f : Vec d K → K) (a b : K) (ev : Nat → Mat n d K → Except Err (Costs n K))
    (hnoise : Noisy f a b ev) (iters : Nat) (hi : 0 < iters)
    (nproc : Option Nat) (env : Nat → Draw n d K)
    (hknn : ∀ t x, IsKnn dist k x ((env t).oracle.knn k p x)) (c : XR K) (y : Vec d K)
    (ho : optimize cfg ev iters nproc env s = (s', .ok (c, y)))
    (hco : ∀ x v, s'.evals.getLast? = some (x, v) →
      ∀ i, ((List.finRange n).filter fun j => x j = x i).length ≤ k) :
    ∃ E, s'.evals = s.evals ++ E ∧ E ≠ [] ∧ NearBest f a b E c y :=
  nearBest_matching cfg hnoise hi ho
    (C07_dynamic_ring cfg hk k p ha hap dist hd s s' ev iters hi nproc env hknn c y ho hco)

/-- GeneralOptimizerPSO with the Random topology, any call of any history. -/
theorem C114_random (cfg : Config n d K) (st : Bool) (hk : cfg.kind = .general (.random st))
    (s s' : Opt n d K) (hs : Reachable cfg s) (f : Vec d K → K) (a b : K)
    (ev : Nat → Mat n d K → Except Err (Costs n K)) (hnoise : Noisy f a b ev) (iters : Nat)
    (hi : 0 < iters) (nproc : Option Nat) (env : Nat → Draw n d K) (c : XR K) (y : Vec d K)
    (ho : optimize cfg ev iters nproc env s = (s', .ok (c, y))) :
    ∃ E, s'.evals = s.evals ++ E ∧ E ≠ [] ∧ NearBest f a b E c y :=
  nearBest_matching cfg hnoise hi ho (C57_random cfg st hk s s' hs ev iters hi nproc env c y ho)

/-- GeneralOptimizerPSO with the Pyramid topology. -/
theorem C114_pyramid (cfg : Config n d K) (st : Bool) (hk : cfg.kind = .general (.pyramid st))
    (s s' : Opt n d K) (hs : st = false ∨ s.top.neighbor = none) (f : Vec d K → K) (a b : K)
    (ev : Nat → Mat n d K → Except Err (Costs n K)) (hnoise : Noisy f a b ev) (iters : Nat)
    (hi : 0 < iters) (nproc : Option Nat) (env : Nat → Draw n d K)
    (hdel : ∀ t x nbr, (env t).oracle.delaunay x = .ok nbr →
      (∀ i, nbr i ≠ []) ∧ ∀ i j, j ∈ nbr i → i ∈ nbr j)
    (c : XR K) (y : Vec d K) (ho : optimize cfg ev iters nproc env s = (s', .ok (c, y))) :
    ∃ E, s'.evals = s.evals ++ E ∧ E ≠ [] ∧ NearBest f a b E c y :=
  nearBest_matching cfg hnoise hi ho
    (C57_pyramid cfg st hk s s' hs ev iters hi nproc env hdel c y ho)

/-- The personal bests, for every optimizer and any call, also one that raises: the personal best
cost is the true cost of the personal best position up to the error, and no position the particle
has visited in this call is better by more than the spread. -/
theorem C114_personal_best (cfg : Config n d K) (f : Vec d K → K) (a b : K)
    (ev : Nat → Mat n d K → Except Err (Costs n K)) (hnoise : Noisy f a b ev)
    (env : Nat → Draw n d K) (iters : Nat) (nproc : Option Nat) (hp : nproc ≠ some 0)
    (s s' : Opt n d K) (hs' : s' = (optimize cfg ev iters nproc env s).1) :
    ∃ E, s'.evals = s.evals ++ E ∧ ∀ e ∈ E, ∀ i,
      (∃ q, s'.swarm.pbestCost i = .fin q ∧ f (s'.swarm.pbestPos i) - a ≤ q ∧
        q ≤ f (s'.swarm.pbestPos i) + b) ∧
      f (s'.swarm.pbestPos i) ≤ f (e.1 i) + (a + b) := by
  subst hs'
  obtain ⟨E, hE, hl, -, hpb⟩ := C01_personal_best cfg ev env iters nproc hp s
  refine ⟨E, hE, fun e he i => ?_⟩
  obtain ⟨q, hq, h1, h2⟩ := noisy_log hnoise hl he i
  have hinf : (optimize cfg ev iters nproc env s).1.swarm.pbestCost i ≠ XR.pinf := by
    intro hc
    have := isPersonalBest_not_below (hpb i) (e.1 i, e.2 i) (List.mem_map.2 ⟨e, he, rfl⟩)
    rw [hc, hq] at this
    simp [XR.lt] at this
  obtain ⟨e', he', hx, hy⟩ := isPersonalBest_mem (hpb i) hinf
  obtain ⟨q', hq', h1', h2'⟩ := noisy_log hnoise hl he' i
  have := isPersonalBest_not_below (hpb i) (e.1 i, e.2 i) (List.mem_map.2 ⟨e, he, rfl⟩)
  rw [← hy, hq, hq'] at this
  simp only [XR.lt, decide_eq_false_iff_not, not_lt] at this
  rw [← hx, ← hy]
  exact ⟨⟨q', hq', h1', h2'⟩, by linarith⟩

/-- `cost_history` of GlobalBestPSO: each entry is, up to the error, the lowest true cost evaluated
until then.  Over any history of calls since the last reset, all of them noisy (so that every
evaluation recorded is within the error). -/
theorem C114_history (hn : 0 < n) (cfg : Config n d K) (hk : cfg.kind.isStar) (s : Opt n d K)
    (h : Reachable cfg s) (f : Vec d K → K) (a b : K)
    (hnoise : ∀ e ∈ s.evals, ∀ i, ∃ q, e.2 i = .fin q ∧ f (e.1 i) - a ≤ q ∧ q ≤ f (e.1 i) + b)
    (t : Nat) (ht : t < s.costHistory.length) :
    ∃ q, s.costHistory[t] = .fin q ∧
      (∃ e ∈ s.evals.take (t + 1), ∃ i, f (e.1 i) ≤ q + a) ∧
      ∀ e ∈ s.evals.take (t + 1), ∀ i, q ≤ f (e.1 i) + b := by
  obtain ⟨hlen, hmin⟩ := C04_cost_history_running_min hn cfg hk s h
  obtain ⟨-, hmem, hle⟩ := hmin t ht
  have hne : s.evals.take (t + 1) ≠ [] := by
    intro hc
    have := congrArg List.length hc
    simp at this
    rw [this] at hlen
    simp at hlen
    rw [hlen] at ht
    simp at ht
  have hfin : s.costHistory[t] ∈ allCosts (s.evals.take (t + 1)) := by
    rcases hmem with hc | hm
    · obtain ⟨e, he⟩ := List.exists_mem_of_ne_nil _ hne
      obtain ⟨q, hq, -, -⟩ := hnoise e (List.mem_of_mem_take he) ⟨0, hn⟩
      have := hle _ ((mem_allCosts _ _).2 ⟨e, he, ⟨0, hn⟩, rfl⟩)
      rw [hc, hq] at this
      simp [XR.lt] at this
    · exact hm
  obtain ⟨e, he, i, hei⟩ := (mem_allCosts _ _).1 hfin
  obtain ⟨q, hq, h1, h2⟩ := hnoise e (List.mem_of_mem_take he) i
  refine ⟨q, by rw [← hei, hq], ⟨e, he, i, by linarith⟩, fun e' he' j => ?_⟩
  obtain ⟨q', hq', h1', h2'⟩ := hnoise e' (List.mem_of_mem_take he') j
  have := hle _ ((mem_allCosts _ _).2 ⟨e', he', j, rfl⟩)
  rw [← hei, hq, hq'] at this
  simp only [XR.lt, decide_eq_false_iff_not, not_lt] at this
  linarith

/-! ## Examples -/

/-- A noisy objective: the cost of the first particle is measured `e0` wrong, that of the second
`e1`. -/
def wrongBy (f : Vec 1 ℚ → ℚ) (e0 e1 : ℚ) : Nat → Mat 2 1 ℚ → Except Err (Costs 2 ℚ) :=
  fun _ x => .ok fun i => .fin (f (x i) + if i = 0 then e0 else e1)

theorem wrongBy_noisy (f : Vec 1 ℚ → ℚ) : Noisy f 1 1 (wrongBy f (-1) 1) := by
  intro k x v h i
  cases h
  refine ⟨_, rfl, ?_, ?_⟩ <;> split_ifs <;> linarith

/-- Evaluated positions, returned cost and returned position of a GlobalBestPSO with two
particles. -/
def seenNoisy (ev : Nat → Mat 2 1 ℚ → Except Err (Costs 2 ℚ)) : List (List ℚ) × Option (ℚ × ℚ) :=
  match construct (Ex.gcfg 2 1) (Ex.init 2 1) (Ex.init 2 1) with
  | .ok s =>
    match optimize (Ex.gcfg 2 1) ev 1 none (fun _ => Ex.draw 2 1) s with
    | (s', .ok (.fin c, p)) =>
      (s'.evals.map fun e => (List.finRange 2).map fun i => e.1 i 0, some (c, p 0))
    | _ => ([], none)
  | _ => ([], none)

/-- Non-vacuity, and the bound is sharp: errors of up to 1, true cost `-2 x`; `0` is returned
although `1` has been evaluated, whose true cost is lower by 2. -/
example : seenNoisy (wrongBy (fun v => -2 * v 0) (-1) 1) = ([[0, 1]], some (-1, 0)) := by
  decide +kernel

end PySwarms
