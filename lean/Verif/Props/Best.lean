import Verif.Lemmas.Gbest
import Verif.Examples

/-! # C01–C06: personal bests and the global best -/

set_option linter.unusedSectionVars false

namespace PySwarms

variable {n d : Nat} {K : Type} [Field K] [LinearOrder K] [Transc K] [FloorRing K]

/-! ## C01 -/

/-- **C01** (inside a call).  After any number `t` of iterations of an `optimize` call on any
optimizer object `s`: with `E` the evaluations made by the call so far, every particle's
`(pbest_pos, pbest_cost)` is the personal best of its own evaluations in `E`. -/
theorem C01_personal_best_inside (cfg : Config n d K)
    (ev : Nat → Mat n d K → Except Err (Costs n K)) (env : Nat → Draw n d K) (iters t : Nat)
    (s : Opt n d K) :
    ∃ E, (loop cfg ev env iters t 0 [] (prepare cfg s)).1.evals = s.evals ++ E ∧ LogOf ev E ∧
      E.length ≤ t ∧ ∀ i, IsPersonalBest (particleLog E i) (s.swarm.pbestPos i)
        ((loop cfg ev env iters t 0 [] (prepare cfg s)).1.swarm.pbestPos i)
        ((loop cfg ev env iters t 0 [] (prepare cfg s)).1.swarm.pbestCost i) := by
  obtain ⟨E, h1, h2, h3⟩ := loop_log cfg ev env iters t 0 [] (prepare cfg s)
  have hb : (prepare cfg s).evals = s.evals := rfl
  refine ⟨E, by rw [h1, hb], by simpa [LogOf] using h3, h2, ?_⟩
  have hp : PInv s.evals s.swarm.pbestPos (prepare cfg s) :=
    ⟨[], by simp [hb], fun i => isPersonalBest_nil _⟩
  obtain ⟨E', h1', h2'⟩ := loop_inv cfg ev env iters _
    (fun i q s hs => pInv_iterate cfg (ev i) (env i) iters i q s hs) t 0 [] _ hp
  rw [h1, hb] at h1'
  rw [List.append_cancel_left h1']
  exact h2'

/-- **C01** (after the call).  However an `optimize` call ends (returning, or by an exception in
the objective or anywhere in the loop), the personal bests are those of the evaluations made by
the call. -/
theorem C01_personal_best (cfg : Config n d K)
    (ev : Nat → Mat n d K → Except Err (Costs n K)) (env : Nat → Draw n d K) (iters : Nat)
    (nproc : Option Nat) (hp : nproc ≠ some 0) (s : Opt n d K) :
    ∃ E, (optimize cfg ev iters nproc env s).1.evals = s.evals ++ E ∧ LogOf ev E ∧
      E.length ≤ iters ∧ ∀ i, IsPersonalBest (particleLog E i) (s.swarm.pbestPos i)
        ((optimize cfg ev iters nproc env s).1.swarm.pbestPos i)
        ((optimize cfg ev iters nproc env s).1.swarm.pbestCost i) := by
  obtain ⟨E, h1, h2, h3⟩ := loop_log cfg ev env iters iters 0 [] (startState cfg nproc s)
  have hb : (startState cfg nproc s).evals = s.evals := rfl
  have hI : PInv s.evals s.swarm.pbestPos (startState cfg nproc s) :=
    ⟨[], by simp [hb], fun i => isPersonalBest_nil _⟩
  have hl := loop_inv cfg ev env iters _
    (fun i q s hs => pInv_iterate cfg (ev i) (env i) iters i q s hs) iters 0 [] _ hI
  have key : ∀ s' : Opt n d K,
      s'.evals = (loop cfg ev env iters iters 0 [] (startState cfg nproc s)).1.evals →
      PInv s.evals s.swarm.pbestPos s' →
      ∃ E, s'.evals = s.evals ++ E ∧ LogOf ev E ∧ E.length ≤ iters ∧
        ∀ i, IsPersonalBest (particleLog E i) (s.swarm.pbestPos i) (s'.swarm.pbestPos i)
          (s'.swarm.pbestCost i) := by
    intro s' he hI'
    obtain ⟨E', ha, hb'⟩ := hI'
    rw [he, h1, hb] at ha
    obtain rfl := List.append_cancel_left ha
    exact ⟨E, by rw [he, h1, hb], by simpa [LogOf] using h3, h2, hb'⟩
  have hc := optimize_cases cfg ev iters nproc env s
  generalize (optimize cfg ev iters nproc env s).1 = s' at hc ⊢
  generalize (optimize cfg ev iters nproc env s).2 = o at hc
  cases hc with
  | badPool h => exact absurd h hp
  | loopError s1 e hp h => rw [h] at hl key; exact key _ rfl hl
  | finishError s1 e hp h hf => rw [h] at hl key; exact key _ rfl hl
  | done r hp s1 h hf => rw [h] at hl key; exact key _ rfl (pInv_congr hl rfl rfl rfl)

/-- Non-vacuity: a run of three iterations in which particle 1's personal best is *not* its last
evaluation (the objective drifts upwards), and particle 0's personal best moves. -/
example : (match construct (Ex.gcfg 2 1) (Ex.init 2 1) (Ex.init 2 1) with
    | .ok s =>
      let s' := (loop (Ex.gcfg 2 1) (Ex.drift 2) (fun _ => Ex.draw 2 1) 3 3 0 []
        (prepare (Ex.gcfg 2 1) s)).1
      decide (s'.swarm.pbestCost 1 = .fin 1 ∧ s'.swarm.pbestPos 1 0 = 1 ∧
        s'.swarm.currentCost 1 ≠ .fin 1 ∧ s'.evals.length = 3)
    | _ => false) = true := by decide +kernel

/-! ## C02 -/

/-- **C02**.  In every reachable state of every optimizer class, no personal best cost, no entry
of `cost_history` and no best cost is NaN. -/
theorem C02_never_nan (cfg : Config n d K) (s : Opt n d K) (h : Reachable cfg s) :
    (∀ i, s.swarm.pbestCost i ≠ XR.nan) ∧ s.swarm.bestCostVal ≠ XR.nan ∧
      ∀ c ∈ s.costHistory, c ≠ XR.nan :=
  let h := noNan_reachable cfg s h
  ⟨h.pb, h.best, h.hist⟩

/-- **C02** (returned cost).  A call of `optimize` on a reachable object never returns NaN. -/
theorem C02_returned_not_nan (cfg : Config n d K) (s : Opt n d K) (h : Reachable cfg s)
    (ev : Nat → Mat n d K → Except Err (Costs n K)) (iters : Nat) (nproc : Option Nat)
    (env : Nat → Draw n d K) (s' : Opt n d K) (c : XR K) (p : Vec d K)
    (ho : optimize cfg ev iters nproc env s = (s', .ok (c, p))) : c ≠ XR.nan := by
  have h' := noNan_optimize cfg ev iters nproc env s (noNan_reachable cfg s h)
  obtain ⟨s1, _, hs', hb, _⟩ := optimize_ok cfg ev iters nproc env s s' c p ho
  rw [ho] at h'
  have : s'.swarm.bestCostVal = c := by simp [hs', Swarm.bestCostVal, hb]
  rw [← this]; exact h'.best

/-- **C02** (per evaluation).  A particle whose cost was evaluated to NaN or `+inf` keeps its
personal best. -/
theorem C02_bad_evaluation_ignored (s : Swarm n d K) (i : Fin n)
    (h : s.currentCost i = XR.nan ∨ s.currentCost i = XR.pinf) :
    (computePbest s).1 i = s.pbestPos i ∧ (computePbest s).2 i = s.pbestCost i := by
  have hl : XR.lt (s.currentCost i) (s.pbestCost i) = false := by
    rcases h with h | h <;> rw [h]
    · rfl
    · exact XR.not_pinf_lt _
  rw [computePbest_pos, computePbest_cost]; simp [hl]

/-- Non-vacuity: an objective returning NaN for particle 0 and a number for particle 1. -/
example : (match construct (Ex.gcfg 2 1) (Ex.init 2 1) (Ex.init 2 1) with
    | .ok s =>
      match optimize (Ex.gcfg 2 1) (fun k _ => .ok fun i => if i = 0 then .nan else .fin k) 2 none
          (fun _ => Ex.draw 2 1) s with
      | (s', .ok (c, _)) => decide (c = .fin 0 ∧ s'.swarm.pbestCost 0 = .pinf ∧
          s'.swarm.currentCost 0 = .nan)
      | _ => false
    | _ => false) = true := by decide +kernel

/-! ## C03 -/

/-- **C03**.  `compute_pbest` picks, for each particle, the whole current pair or the whole old
pair, the current one exactly when its cost is strictly smaller. -/
theorem C03_compute_pbest (s : Swarm n d K) (i : Fin n) :
    (XR.lt (s.currentCost i) (s.pbestCost i) = true →
      (computePbest s).1 i = s.position i ∧ (computePbest s).2 i = s.currentCost i) ∧
    (XR.lt (s.currentCost i) (s.pbestCost i) = false →
      (computePbest s).1 i = s.pbestPos i ∧ (computePbest s).2 i = s.pbestCost i) ∧
    XR.lt (s.pbestCost i) ((computePbest s).2 i) = false := by
  rw [computePbest_pos, computePbest_cost]
  refine ⟨fun h => by simp [h], fun h => by simp [h], ?_⟩
  by_cases h : XR.lt (s.currentCost i) (s.pbestCost i) = true
  · simp only [h, if_true]; exact XR.lt_asymm h
  · simp only [h]; exact XR.lt_irrefl _

/-- Non-vacuity: one particle improves, one does not. -/
example : ∃ s : Swarm 2 1 ℚ, XR.lt (s.currentCost 0) (s.pbestCost 0) = true ∧
    XR.lt (s.currentCost 1) (s.pbestCost 1) = false ∧
    (computePbest s).1 0 0 = 7 ∧ (computePbest s).1 1 0 = 3 := by
  refine ⟨{ position := fun _ _ => 7, velocity := fun _ _ => 0, options := [],
            pbestPos := fun _ _ => 3, pbestCost := fun _ => .fin 2, bestPos := .empty,
            bestCost := none,
            currentCost := fun i => if i = 0 then .fin 1 else .fin 2 }, ?_⟩
  decide +kernel

/-! ## C04 -/

/-- **C04**.  In every reachable state of an optimizer with Star topology, `cost_history` has one
entry per evaluation since the last reset, and entry `t` is the minimum of all costs in the first
`t+1` evaluations. -/
theorem C04_cost_history_running_min (hn : 0 < n) (cfg : Config n d K) (hk : cfg.kind.isStar)
    (s : Opt n d K) (h : Reachable cfg s) :
    s.costHistory.length = s.evals.length ∧
    ∀ (t : Nat) (ht : t < s.costHistory.length),
      IsMinOf s.costHistory[t] (allCosts (s.evals.take (t + 1))) :=
  let h := starInv_reachable hn cfg hk s h
  ⟨h.len, h.hist⟩

/-- **C04** (monotonicity).  `cost_history` never increases. -/
theorem C04_cost_history_antitone (hn : 0 < n) (cfg : Config n d K) (hk : cfg.kind.isStar)
    (s : Opt n d K) (h : Reachable cfg s) (t u : Nat) (htu : t ≤ u)
    (hu : u < s.costHistory.length) :
    XR.lt (s.costHistory[t]'(Nat.lt_of_le_of_lt htu hu)) s.costHistory[u] = false := by
  have h := starInv_reachable hn cfg hk s h
  refine isMinOf_antitone (h.hist t (by omega)) (h.hist u hu) ?_
  intro x hx
  rw [mem_allCosts] at hx ⊢
  obtain ⟨e, he, i, hi⟩ := hx
  refine ⟨e, ?_, i, hi⟩
  rw [List.mem_take_iff_getElem] at he ⊢
  obtain ⟨k, hk, rfl⟩ := he
  exact ⟨k, by omega, rfl⟩

/-- Non-vacuity: two `optimize` calls with a reset before them; the second call evaluates worse
costs (`drift` restarts, shifted) and the history stays at the minimum. -/
example : (match construct (Ex.gcfg 2 1) (Ex.init 2 1) (Ex.init 2 1) with
    | .ok s =>
      let s' := runOps (Ex.gcfg 2 1) s [.optimize (Ex.sphere 2 1) 1 none fun _ => Ex.draw 2 1,
        .reset (Ex.init 2 1),
        .optimize (Ex.sphere 2 1) 3 none fun _ => Ex.draw 2 1,
        .optimize (fun _ _ => .ok fun _ => .fin 100) 2 none fun _ => Ex.draw 2 1]
      decide (s'.costHistory.length = 5 ∧ s'.costHistory[4]? = some (.fin 0))
    | _ => false) = true := by decide +kernel

/-! ## C05, C06 -/

/-- **C06**.  A call on any reachable Star optimizer returns the smaller of the best cost so far
and the smallest cost `m` evaluated by this call (`m = +inf` if nothing below it was evaluated),
together with a position that this call evaluated to `m` (or, if `m = +inf`, an old personal
best position). -/
theorem C06_repeated_call (hn : 0 < n) (cfg : Config n d K) (hk : cfg.kind.isStar)
    (s : Opt n d K) (hs : Reachable cfg s)
    (ev : Nat → Mat n d K → Except Err (Costs n K)) (iters : Nat) (nproc : Option Nat)
    (env : Nat → Draw n d K) (s' : Opt n d K) (c : XR K) (p : Vec d K)
    (ho : optimize cfg ev iters nproc env s = (s', .ok (c, p))) :
    ∃ E m, s'.evals = s.evals ++ E ∧ LogOf ev E ∧ IsMinOf m (allCosts E) ∧
      IsMinOf c (allCosts s.evals ++ allCosts E) ∧
      ((XR.lt m XR.pinf = true ∧ ∃ e ∈ E, ∃ i, e.1 i = p ∧ e.2 i = m) ∨
       (m = XR.pinf ∧ ∃ i, p = s.swarm.pbestPos i)) ∧
      (XR.lt s.swarm.bestCostVal m = false → c = m) ∧
      (XR.lt s.swarm.bestCostVal m = true → c = s.swarm.bestCostVal ∧ XR.lt c m = true) := by
  have hnp : nproc ≠ some 0 := by
    rintro rfl
    unfold optimize at ho
    simp at ho
  obtain ⟨E, hE, hlog, -, hpb⟩ := C01_personal_best cfg ev env iters nproc hnp s
  have hinv := starInv_optimize hn cfg hk ev iters nproc env s (starInv_reachable hn cfg hk s hs)
  have hinv0 := starInv_reachable hn cfg hk s hs
  obtain ⟨s1, _, hs', hb, k, hkk, hp⟩ := optimize_ok cfg ev iters nproc env s s' c p ho
  rw [ho] at hE hpb hinv
  simp only at hE hpb hinv
  have e1 : s'.swarm = s1.swarm := by rw [hs']
  have hcv : s'.swarm.bestCostVal = c := by simp [e1, Swarm.bestCostVal, hb]
  have hk2 : npArgmin s'.swarm.pbestCost = some k := by rw [e1]; exact hkk
  have hnn : ∀ i, s'.swarm.pbestCost i ≠ XR.nan := fun i => isPersonalBest_ne_nan (hpb i)
  rw [npArgmin_eq_some_iff _ hnn] at hk2
  have hmin : IsMinOf (s'.swarm.pbestCost k) (allCosts E) := by
    refine ⟨hnn k, ?_, ?_⟩
    · by_cases hinf : s'.swarm.pbestCost k = XR.pinf
      · left; exact hinf
      · right
        obtain ⟨e, he, _, h2⟩ := isPersonalBest_mem (hpb k) hinf
        exact (mem_allCosts _ _).2 ⟨e, he, k, h2⟩
    · intro x hx
      obtain ⟨e, he, i, rfl⟩ := (mem_allCosts _ _).1 hx
      refine XR.not_lt_trans (hnn i) ?_ (hk2.1 i)
      exact isPersonalBest_not_below (hpb i) (e.1 i, e.2 i)
        (List.mem_map.2 ⟨e, he, rfl⟩)
  have hcmin : IsMinOf c (allCosts s.evals ++ allCosts E) := by
    have := hinv.best
    rw [hcv, hE, allCosts_append] at this
    exact this
  refine ⟨E, s'.swarm.pbestCost k, hE, hlog, hmin, hcmin, ?_, ?_, ?_⟩
  · rcases hpb k with ⟨_, h, h2⟩ | hfb
    · right; exact ⟨h, k, by rw [hp, ← e1]; exact h2⟩
    · left
      have hlt : XR.lt (s'.swarm.pbestCost k) XR.pinf = true := by
        obtain ⟨_, _, _, hlt, _⟩ := hfb; exact hlt
      refine ⟨hlt, ?_⟩
      obtain ⟨e, he, h1, h2⟩ := isPersonalBest_mem (hpb k) ((XR.lt_pinf_iff _).1 hlt).2
      exact ⟨e, he, k, by rw [h1, hp, e1], h2⟩
  · intro hge
    refine isMinOf_unique hcmin ⟨hmin.1, ?_, ?_⟩
    · rcases hmin.2.1 with h | h
      · left; exact h
      · right; exact List.mem_append_right _ h
    · intro x hx
      rcases List.mem_append.1 hx with hx | hx
      · exact XR.not_lt_trans hinv0.best.1 (hinv0.best.2.2 x hx) hge
      · exact hmin.2.2 x hx
  · intro hlt
    have hceq : c = s.swarm.bestCostVal := by
      refine isMinOf_unique hcmin ⟨hinv0.best.1, ?_, ?_⟩
      · rcases hinv0.best.2.1 with h | h
        · left; exact h
        · right; exact List.mem_append_left _ h
      · intro x hx
        rcases List.mem_append.1 hx with hx | hx
        · exact hinv0.best.2.2 x hx
        · by_cases hxn : x = XR.nan
          · rw [hxn]; rfl
          · exact XR.lt_asymm (XR.lt_of_lt_of_not_lt hlt hxn (hmin.2.2 x hx))
    exact ⟨hceq, by rw [hceq]; exact hlt⟩

/-- **C05**.  The first call after construction or reset returns a pair `(c, p)` such that the
objective was evaluated at `p` with result `c`, and no evaluation of the call was below `c`. -/
theorem C05_first_call (hn : 0 < n) (cfg : Config n d K) (hk : cfg.kind.isStar)
    (s : Opt n d K) (hs : Fresh cfg s)
    (ev : Nat → Mat n d K → Except Err (Costs n K)) (iters : Nat) (nproc : Option Nat)
    (env : Nat → Draw n d K) (s' : Opt n d K) (c : XR K) (p : Vec d K)
    (ho : optimize cfg ev iters nproc env s = (s', .ok (c, p))) :
    LogOf ev s'.evals ∧ (∃ e ∈ s'.evals, ∃ i, e.1 i = p ∧ e.2 i = c) ∧
      ∀ e ∈ s'.evals, ∀ i, XR.lt (e.2 i) c = false := by
  obtain ⟨r, sw, t, a, b, q, hsw, hsE⟩ := fresh_cases cfg s hs
  have hi := fresh_reachable_init cfg r sw hsw
  have hst : StarInv s := by
    rw [hsE]; exact starInv_init (r := r) t a b q ⟨hi.1, hi.2.1⟩
  have hnp : nproc ≠ some 0 := by
    rintro rfl
    unfold optimize at ho
    simp at ho
  have hev : s.evals = [] := by rw [hsE]
  obtain ⟨E, hE, hlog, -, hpb⟩ := C01_personal_best cfg ev env iters nproc hnp s
  have hinv := starInv_optimize hn cfg hk ev iters nproc env s hst
  obtain ⟨s1, _, hs', hb, k, hkk, hp⟩ := optimize_ok cfg ev iters nproc env s s' c p ho
  rw [ho] at hE hpb hinv
  simp only [hev, List.nil_append] at hE hpb hinv
  have e1 : s'.swarm = s1.swarm := by rw [hs']
  have hbc : s'.swarm.bestCost = some c := by rw [e1]; exact hb
  have hcv : s'.swarm.bestCostVal = c := by simp [Swarm.bestCostVal, hbc]
  have hcl : XR.lt c XR.pinf = true := hinv.some c hbc
  have hbest := hinv.best
  rw [hcv] at hbest
  have hall : ∀ e ∈ s'.evals, ∀ i, XR.lt (e.2 i) c = false := fun e he i =>
    hbest.2.2 _ ((mem_allCosts _ _).2 ⟨e, he, i, rfl⟩)
  refine ⟨by rw [hE]; exact hlog, ?_, hall⟩
  -- the smallest personal best equals the smallest evaluation
  have hk2 : npArgmin s'.swarm.pbestCost = some k := by rw [e1]; exact hkk
  have hnn : ∀ i, s'.swarm.pbestCost i ≠ XR.nan := fun i => isPersonalBest_ne_nan (hpb i)
  rw [npArgmin_eq_some_iff _ hnn] at hk2
  have hcmem : c ∈ allCosts s'.evals := by
    rcases hbest.2.1 with h | h
    · rw [h, XR.lt_irrefl] at hcl; cases hcl
    · exact h
  obtain ⟨e, he, i, hei⟩ := (mem_allCosts _ _).1 hcmem
  have hcn : c ≠ XR.nan := XR.left_ne_nan hcl
  have hle : XR.lt c (s'.swarm.pbestCost i) = false := by
    have := isPersonalBest_not_below (hpb i) (e.1 i, e.2 i)
      (List.mem_map.2 ⟨e, by rw [← hE]; exact he, rfl⟩)
    rw [hei] at this; exact this
  have hlek : XR.lt c (s'.swarm.pbestCost k) = false := XR.not_lt_trans (hnn i) hle (hk2.1 i)
  have hinf : s'.swarm.pbestCost k ≠ XR.pinf := by
    intro h; rw [h, hcl] at hlek; cases hlek
  obtain ⟨e', he', hx, hy⟩ := isPersonalBest_mem (hpb k) hinf
  refine ⟨e', by rw [hE]; exact he', k, by rw [hx, hp, e1], ?_⟩
  rw [hy]
  refine XR.eq_of_not_lt (hnn k) hcn ?_ hlek
  rw [← hy]; exact hall e' (by rw [hE]; exact he') k

/-- Non-vacuity of C05: a fresh run that returns. -/
example : (match construct (Ex.gcfg 2 1) (Ex.init 2 1) (Ex.init 2 1) with
    | .ok s =>
      match optimize (Ex.gcfg 2 1) (Ex.sphere 2 1) 3 (some 2) (fun _ => Ex.draw 2 1) s with
      | (s', .ok (c, p)) => decide (c = .fin 0 ∧ p 0 = 0 ∧ s'.evals.length = 3)
      | _ => false
    | _ => false) = true := by decide +kernel

/-- **C06** (witness).  The mismatch really happens: construct, `optimize` with one objective, then
`optimize` with an objective that is 100 everywhere: the returned cost is 0, although the second
call evaluated nothing but 100. -/
theorem C06_mismatch_witness :
    ∃ s : Opt 2 1 ℚ, Reachable (Ex.gcfg 2 1) s ∧ ∃ s' p,
      optimize (Ex.gcfg 2 1) (fun _ _ => .ok fun _ => .fin 100) 1 none (fun _ => Ex.draw 2 1) s
        = (s', .ok (.fin 0, p)) ∧
      ∃ x, s'.evals = s.evals ++ [(x, fun _ => .fin 100)] := by
  have hc : ∃ s0, construct (Ex.gcfg 2 1) (Ex.init 2 1) (Ex.init 2 1) = .ok s0 := ⟨_, rfl⟩
  obtain ⟨s0, hs0⟩ := hc
  refine ⟨runOps (Ex.gcfg 2 1) s0 [.optimize (Ex.sphere 2 1) 1 none fun _ => Ex.draw 2 1],
    ⟨_, _, _, _, hs0, rfl⟩, ?_⟩
  have h : (match construct (Ex.gcfg 2 1) (Ex.init 2 1) (Ex.init 2 1) with
    | .ok s0 =>
      match optimize (Ex.gcfg 2 1) (fun _ _ => .ok fun _ => .fin 100) 1 none
        (fun _ => Ex.draw 2 1) (runOps (Ex.gcfg 2 1) s0
          [.optimize (Ex.sphere 2 1) 1 none fun _ => Ex.draw 2 1]) with
      | (_, .ok (c, _)) => decide (c = .fin 0)
      | _ => false
    | _ => false) = true := by decide +kernel
  rw [hs0] at h
  simp only at h
  generalize runOps (Ex.gcfg 2 1) s0 _ = s at h ⊢
  split at h
  · next s' c p heq =>
    have hcc : c = .fin 0 := by simpa using h
    subst hcc
    refine ⟨s', p, heq, ?_⟩
    obtain ⟨E, hE, hlog, hlen, -⟩ := C01_personal_best (Ex.gcfg 2 1)
      (fun _ _ => .ok fun _ => .fin 100) (fun _ => Ex.draw 2 1) 1 none (by simp) s
    rw [heq] at hE
    simp only at hE
    obtain ⟨s1, hl, hs', -⟩ := optimize_ok _ _ _ _ _ _ _ _ _ heq
    match E, hlen with
    | [], _ =>
      exfalso
      simp only [List.append_nil] at hE
      unfold loop at hl
      have hc := iterate_cases (Ex.gcfg 2 1) (fun _ => .ok fun _ => .fin (100 : ℚ)) (Ex.draw 2 1)
        1 0 [] (startState (Ex.gcfg 2 1) none s)
      generalize hit : iterate (Ex.gcfg 2 1) (fun _ => .ok fun _ => .fin (100 : ℚ)) (Ex.draw 2 1)
        1 0 [] (startState (Ex.gcfg 2 1) none s) = res at hc
      rw [hit] at hl
      obtain ⟨s2, o⟩ := res
      simp only at hc hl
      cases hc with
      | evalError e h => cases h
      | gbestError c t e h hg => cases hl
      | stop c t g h =>
        simp only [Prod.mk.injEq] at hl
        rw [hs', ← hl.1] at hE
        have := congrArg List.length hE
        simp [recordBest, recordEval, Opt.populateHistory, startState, prepare] at this
      | moveError => cases hl
      | moved c t g s3 h hg hns hm =>
        have hf := moveSwarm_frame (Ex.gcfg 2 1) (Ex.draw 2 1) 1 0
          (recordBest t g (recordEval c (startState (Ex.gcfg 2 1) none s)))
        rw [hm] at hf
        simp only [loop, Prod.mk.injEq] at hl
        rw [hs', ← hl.1] at hE
        have h12 := hf.2.2.2.2.2.2.2.2.2.2.2.1
        simp only at h12
        simp only [h12] at hE
        have := congrArg List.length hE
        simp [recordBest, recordEval, Opt.populateHistory, startState, prepare] at this
    | [e], _ =>
      refine ⟨e.1, ?_⟩
      rw [hE]
      have := hlog 0 (by simp)
      simp at this
      rw [this]
    | _ :: _ :: _, hlen => simp at hlen
  · cases h

end PySwarms
