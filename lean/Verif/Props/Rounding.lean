import Verif.Lemmas.Rounded
import Verif.Lemmas.Float
import Verif.Props.Bounds

/-! # C67, C68: what holds in floating-point arithmetic -/

set_option linter.unusedSectionVars false

namespace PySwarms

variable {n d : Nat} {K : Type} [Field K] [LinearOrder K] [Transc K] [FloorRing K]

/-! ## The rounded model contains the exact one -/

/-- In exact arithmetic the rounded model is the model of the other files. -/
theorem optimizeR_exact (cfg : Config n d K) (ev : Nat → Mat n d K → Except Err (Costs n K))
    (iters : Nat) (nproc : Option Nat) (env : Nat → Draw n d K) (s : Opt n d K) :
    optimizeR (Arith.exact cfg) cfg ev iters nproc env s = optimize cfg ev iters nproc env s := by
  unfold optimizeR optimize
  simp only [loopR_exact]
  rfl

/-- The states reached on a machine with arithmetic `A`: a swarm has just been created (or created
anew by `reset`) with positions satisfying `P` and velocities satisfying `V`, or `optimize` was
called, with random draws satisfying `D`. -/
inductive RunsR (A : Arith n d K) (cfg : Config n d K) (P V : Mat n d K → Prop)
    (D : Draw n d K → Prop) : Opt n d K → Prop
  | created (pos vel : Mat n d K) (t : TopState n) (bm vm : Option (Mat n d K)) (pools : Nat)
      (hp : P pos) (hv : V vel) :
      RunsR A cfg P V D
        { swarm := mkSwarm pos vel cfg.options, top := t, bhMem := bm, vhMem := vm,
          openPools := pools }
  | optimized (s : Opt n d K) (ev : Nat → Mat n d K → Except Err (Costs n K)) (iters : Nat)
      (nproc : Option Nat) (env : Nat → Draw n d K) (hs : RunsR A cfg P V D s)
      (hd : ∀ i, D (env i)) : RunsR A cfg P V D (optimizeR A cfg ev iters nproc env s).1

/-- Any state reached by any draws from any swarm. -/
def ReachR (A : Arith n d K) (cfg : Config n d K) : Opt n d K → Prop :=
  RunsR A cfg (fun _ => True) (fun _ => True) (fun _ => True)

/-! ## C68: best values -/

/-- **C68** (personal bests).  For every arithmetic: however a call ends, each particle's personal
best is the first smallest of its own evaluations in the call. -/
theorem C68_personal_best (A : Arith n d K) (cfg : Config n d K)
    (ev : Nat → Mat n d K → Except Err (Costs n K)) (env : Nat → Draw n d K) (iters : Nat)
    (nproc : Option Nat) (hp : nproc ≠ some 0) (s : Opt n d K) :
    ∃ E, (optimizeR A cfg ev iters nproc env s).1.evals = s.evals ++ E ∧ LogOf ev E ∧
      E.length ≤ iters ∧ ∀ i, IsPersonalBest (particleLog E i) (s.swarm.pbestPos i)
        ((optimizeR A cfg ev iters nproc env s).1.swarm.pbestPos i)
        ((optimizeR A cfg ev iters nproc env s).1.swarm.pbestCost i) := by
  obtain ⟨E, h1, h2, h3⟩ := loopR_log A cfg ev env iters iters 0 [] (startState cfg nproc s)
  have hb : (startState cfg nproc s).evals = s.evals := rfl
  have hI : PInv s.evals s.swarm.pbestPos (startState cfg nproc s) :=
    ⟨[], by simp [hb], fun i => isPersonalBest_nil _⟩
  have hl := loopR_inv A cfg ev env iters _
    (fun i q s hs => pInv_iterateR A cfg (ev i) (env i) iters i q s hs) iters 0 [] _ hI
  have key : ∀ s' : Opt n d K,
      s'.evals = (loopR A cfg ev env iters iters 0 [] (startState cfg nproc s)).1.evals →
      PInv s.evals s.swarm.pbestPos s' →
      ∃ E, s'.evals = s.evals ++ E ∧ LogOf ev E ∧ E.length ≤ iters ∧
        ∀ i, IsPersonalBest (particleLog E i) (s.swarm.pbestPos i) (s'.swarm.pbestPos i)
          (s'.swarm.pbestCost i) := by
    intro s' he hI'
    obtain ⟨E', ha, hb'⟩ := hI'
    rw [he, h1, hb] at ha
    obtain rfl := List.append_cancel_left ha
    exact ⟨E, by rw [he, h1, hb], by simpa [LogOf] using h3, h2, hb'⟩
  have hc := optimizeR_cases A cfg ev iters nproc env s
  generalize (optimizeR A cfg ev iters nproc env s).1 = s' at hc ⊢
  generalize (optimizeR A cfg ev iters nproc env s).2 = o at hc
  cases hc with
  | badPool h => exact absurd h hp
  | loopError s1 e hp h => rw [h] at hl key; exact key _ rfl hl
  | finishError s1 e hp h hf => rw [h] at hl key; exact key _ rfl hl
  | done r hp s1 h hf => rw [h] at hl key; exact key _ rfl (pInv_congr hl rfl rfl rfl)

theorem starInv_reachR (hn : 0 < n) (A : Arith n d K) (cfg : Config n d K) (hk : cfg.kind.isStar)
    (s : Opt n d K) (h : ReachR A cfg s) : StarInv s := by
  induction h with
  | created pos vel t bm vm pools =>
    refine ⟨fun i => by simp [mkSwarm], ?_, by simp [mkSwarm], rfl, ?_⟩
    · simp [Swarm.bestCostVal, mkSwarm, IsMinOf, allCosts]
    · intro t ht; simp at ht
  | optimized s ev iters nproc env hs hd ih =>
    exact starInv_optimizeR hn A cfg hk ev iters nproc env s ih

/-- **C68** (`cost_history`).  For every arithmetic: with the Star topology `cost_history` has one
entry per evaluation since the swarm was created, and entry `t` is the smallest of all costs in the
first `t+1` evaluations. -/
theorem C68_cost_history (hn : 0 < n) (A : Arith n d K) (cfg : Config n d K)
    (hk : cfg.kind.isStar) (s : Opt n d K) (h : ReachR A cfg s) :
    s.costHistory.length = s.evals.length ∧
    ∀ (t : Nat) (ht : t < s.costHistory.length),
      IsMinOf s.costHistory[t] (allCosts (s.evals.take (t + 1))) :=
  let h := starInv_reachR hn A cfg hk s h
  ⟨h.len, h.hist⟩

/-- **C68** (NaN).  For every arithmetic and every class: no personal best cost, no entry of
`cost_history` and no best cost is NaN, whatever the objective returns. -/
theorem C68_never_nan (A : Arith n d K) (cfg : Config n d K) (s : Opt n d K)
    (h : ReachR A cfg s) :
    (∀ i, s.swarm.pbestCost i ≠ XR.nan) ∧ s.swarm.bestCostVal ≠ XR.nan ∧
      ∀ c ∈ s.costHistory, c ≠ XR.nan := by
  have : NoNan s := by
    induction h with
    | created pos vel t bm vm pools =>
      exact ⟨fun i => by simp [mkSwarm], by simp [Swarm.bestCostVal, mkSwarm], by simp⟩
    | optimized s ev iters nproc env hs hd ih =>
      exact noNan_optimizeR A cfg ev iters nproc env s ih
  exact ⟨this.pb, this.best, this.hist⟩

/-- **C68** (the returned pair).  For every arithmetic, a call on a Star optimizer returns the
smallest cost `c` of all evaluations since the swarm was created, and a position that this call
evaluated to the smallest cost `m` of the call; if nothing before the call was below `m` the two are
the same cost. -/
theorem C68_returned (hn : 0 < n) (A : Arith n d K) (cfg : Config n d K) (hk : cfg.kind.isStar)
    (s : Opt n d K) (hs : ReachR A cfg s)
    (ev : Nat → Mat n d K → Except Err (Costs n K)) (iters : Nat) (nproc : Option Nat)
    (env : Nat → Draw n d K) (s' : Opt n d K) (c : XR K) (p : Vec d K)
    (ho : optimizeR A cfg ev iters nproc env s = (s', .ok (c, p))) :
    ∃ E m, s'.evals = s.evals ++ E ∧ LogOf ev E ∧ IsMinOf m (allCosts E) ∧
      IsMinOf c (allCosts s.evals ++ allCosts E) ∧
      (m ≠ XR.pinf → ∃ e ∈ E, ∃ i, e.1 i = p ∧ e.2 i = m) ∧
      ((∀ x ∈ allCosts s.evals, XR.lt x m = false) → c = m) := by
  obtain ⟨hnp, s1, _, hs', hb, k, hkk, hp⟩ := optimizeR_ok A cfg ev iters nproc env s s' c p ho
  obtain ⟨E, hE, hlog, -, hpb⟩ := C68_personal_best A cfg ev env iters nproc hnp s
  have hinv0 := starInv_reachR hn A cfg hk s hs
  have hinv := starInv_optimizeR hn A cfg hk ev iters nproc env s hinv0
  rw [ho] at hE hpb hinv
  simp only at hE hpb hinv
  have e1 : s'.swarm = s1.swarm := by rw [hs']
  have hcv : s'.swarm.bestCostVal = c := by simp [e1, Swarm.bestCostVal, hb]
  have hk2 : npArgmin s'.swarm.pbestCost = some k := by rw [e1]; exact hkk
  have hnn : ∀ i, s'.swarm.pbestCost i ≠ XR.nan := fun i => isPersonalBest_ne_nan (hpb i)
  rw [npArgmin_eq_some_iff _ hnn] at hk2
  have hmin : IsMinOf (s'.swarm.pbestCost k) (allCosts E) := by
    refine ⟨hnn k, ?_, ?_⟩
    · by_cases hinf : s'.swarm.pbestCost k = XR.pinf
      · left; exact hinf
      · right
        obtain ⟨e, he, _, h2⟩ := isPersonalBest_mem (hpb k) hinf
        exact (mem_allCosts _ _).2 ⟨e, he, k, h2⟩
    · intro x hx
      obtain ⟨e, he, i, rfl⟩ := (mem_allCosts _ _).1 hx
      refine XR.not_lt_trans (hnn i) ?_ (hk2.1 i)
      exact isPersonalBest_not_below (hpb i) (e.1 i, e.2 i) (List.mem_map.2 ⟨e, he, rfl⟩)
  have hcmin : IsMinOf c (allCosts s.evals ++ allCosts E) := by
    have := hinv.best
    rw [hcv, hE, allCosts_append] at this
    exact this
  refine ⟨E, s'.swarm.pbestCost k, hE, hlog, hmin, hcmin, ?_, ?_⟩
  · intro hinf
    obtain ⟨e, he, h1, h2⟩ := isPersonalBest_mem (hpb k) hinf
    exact ⟨e, he, k, by rw [h1, hp, e1], h2⟩
  · intro hge
    refine isMinOf_unique hcmin ⟨hmin.1, ?_, ?_⟩
    · rcases hmin.2.1 with h | h
      · left; exact h
      · right; exact List.mem_append_right _ h
    · intro x hx
      rcases List.mem_append.1 hx with hx | hx
      · exact hge x hx
      · exact hmin.2.2 x hx

/-- **C68** (other topologies).  For every arithmetic and every topology other than Star: if a call
with `iters > 0` returns and the neighbour lists used at the end cover the swarm (or it is a ring
with `k = 1`), the returned pair is matching and optimal for the call. -/
theorem C68_local (A : Arith n d K) (cfg : Config n d K) (hk : cfg.kind.top ≠ .star)
    (s s' : Opt n d K) (ev : Nat → Mat n d K → Except Err (Costs n K)) (iters : Nat)
    (hi : 0 < iters) (nproc : Option Nat) (env : Nat → Draw n d K) (c : XR K) (p : Vec d K)
    (ho : optimizeR A cfg ev iters nproc env s = (s', .ok (c, p)))
    (hcov : (cfg.args.k = some 1 ∧ ∃ st, cfg.kind.top = .ring st) ∨
      ∃ nbr, s'.top.neighbor = some nbr ∧ ∀ j, ∃ i, j ∈ nbr i) :
    MatchingOptimal ev s s' c p := by
  obtain ⟨hnp, s1, hl, hs', hb, k, hkk, hp⟩ := optimizeR_ok A cfg ev iters nproc env s s' c p ho
  obtain ⟨E, hE, hlog, -, hpb⟩ := C68_personal_best A cfg ev env iters nproc hnp s
  rw [ho] at hE hpb
  simp only at hE hpb
  have ht : s'.top = s1.top := by rw [hs']
  have e1 : s'.swarm = s1.swarm := by rw [hs']
  rw [ht] at hcov
  rw [e1] at hpb
  obtain ⟨j, t0, sw, hg, -, e2, -⟩ := loopR_last A cfg ev env iters iters 0 hi [] _ s1 hl
  obtain ⟨args, ha, hargs⟩ := callGbest_eq cfg (env j).oracle t0 sw
  rw [ha] at hg
  have hnn : ∀ i, s1.swarm.pbestCost i ≠ XR.nan := fun i => isPersonalBest_ne_nan (hpb i)
  obtain ⟨c', hc, ⟨i0, hi0⟩, hmin⟩ := computeGbest_min hk (by rw [e2]; exact hnn) hg (by
    rcases hcov with ⟨hk1, st, hst⟩ | hcov
    · left; exact ⟨st, hst, by rw [(hargs hk).1]; exact hk1⟩
    · right; exact hcov)
  rw [e2] at hmin hi0
  simp only at hc
  rw [hb] at hc
  cases hc
  rw [npArgmin_eq_some_iff _ hnn] at hkk
  have hck : c = s1.swarm.pbestCost k := by
    rw [hi0]
    refine XR.eq_of_not_lt (hnn i0) (hnn k) (hkk.1 i0) ?_
    rw [← hi0]; exact hmin k
  refine ⟨E, hE, hlog, ⟨?_, ?_, ?_⟩, ?_⟩
  · rw [hi0]; exact hnn i0
  · by_cases hinf : c = XR.pinf
    · left; exact hinf
    · right
      rw [hi0] at hinf ⊢
      obtain ⟨e, he, _, h5⟩ := isPersonalBest_mem (hpb i0) hinf
      exact (mem_allCosts _ _).2 ⟨e, he, i0, h5⟩
  · intro x hx
    obtain ⟨e, he, i, rfl⟩ := (mem_allCosts _ _).1 hx
    refine XR.not_lt_trans (hnn i) ?_ (hmin i)
    exact isPersonalBest_not_below (hpb i) (e.1 i, e.2 i) (List.mem_map.2 ⟨e, he, rfl⟩)
  · intro hinf
    rw [hck] at hinf ⊢
    obtain ⟨e, he, h4, h5⟩ := isPersonalBest_mem (hpb k) hinf
    exact ⟨e, he, k, by rw [h4, hp], h5⟩

/-! ## C67: bounds -/

/-- The binary64 bounds of a search space: proper, and both ends are doubles. -/
def DoubleBounds (b : Bounds d ℚ) : Prop :=
  ProperBounds b ∧ ∀ j, IsDouble (b.1 j) ∧ IsDouble (b.2 j)

/-- The uniform draws of one boundary handler call are samples of `random_sample`. -/
def BHDraw.Samples (r : BHDraw d ℚ) : Prop := ∀ j, IsSample (r.u j) ∧ IsSample (r.l j)

/-- The boundary strategies that stay inside the bounds in binary64 arithmetic. -/
def keepingStrategies : List String := ["nearest", "reflective", "random", "intermediate", "periodic"]

section handlers

variable {b : Bounds d ℚ}

theorem fl_lb (h : DoubleBounds b) (j : Fin d) : f64 (b.1 j) = b.1 j := f64_of_isDouble (h.2 j).1
theorem fl_ub (h : DoubleBounds b) (j : Fin d) : f64 (b.2 j) = b.2 j := f64_of_isDouble (h.2 j).2

theorem le_fl_of_le {x y : ℚ} (hx : f64 x = x) (h : x ≤ y) : x ≤ f64 y := by
  have := f64_mono h; rwa [hx] at this

theorem fl_le_of_le {x y : ℚ} (hy : f64 y = y) (h : x ≤ y) : f64 x ≤ y := by
  have := f64_mono h; rwa [hy] at this

theorem isSample_nonneg {u : ℚ} (h : IsSample u) : 0 ≤ u := by
  obtain ⟨k, -, rfl⟩ := h
  positivity

theorem redraw_inside (h : DoubleBounds b) (j : Fin d) {u : ℚ} (hu : IsSample u) :
    b.1 j ≤ f64 (f64 (f64 (b.2 j - b.1 j) * u) + b.1 j) ∧
      f64 (f64 (f64 (b.2 j - b.1 j) * u) + b.1 j) ≤ b.2 j := by
  have hlt := h.1 j
  constructor
  · apply le_fl_of_le (fl_lb h j)
    have : 0 ≤ f64 (f64 (b.2 j - b.1 j) * u) :=
      f64_nonneg (mul_nonneg (f64_nonneg (by linarith)) (isSample_nonneg hu))
    linarith
  · apply fl_le_of_le (fl_ub h j)
    have := f64_sample hlt (fl_lb h j) (fl_ub h j) hu
    linarith

theorem half_inside (h : DoubleBounds b) (j : Fin d) {m e : ℚ} (hm : b.1 j ≤ m ∧ m ≤ b.2 j)
    (he : b.1 j ≤ e ∧ e ≤ b.2 j) :
    b.1 j ≤ f64 (1 / 2 * f64 (m + e)) ∧ f64 (1 / 2 * f64 (m + e)) ≤ b.2 j := by
  have h1 : f64 (2 * b.1 j) = 2 * b.1 j := by have := f64_two (b.1 j); rwa [fl_lb h j] at this
  have h2 : f64 (2 * b.2 j) = 2 * b.2 j := by have := f64_two (b.2 j); rwa [fl_ub h j] at this
  constructor
  · apply le_fl_of_le (fl_lb h j)
    have := le_fl_of_le h1 (y := m + e) (by linarith [hm.1, he.1])
    linarith
  · apply fl_le_of_le (fl_ub h j)
    have := fl_le_of_le h2 (x := m + e) (by linarith [hm.2, he.2])
    linarith

theorem wrap_inside (h : DoubleBounds b) (j : Fin d) {a : ℚ} (ha : 0 ≤ a)
    (hs : |f64 (b.2 j - b.1 j)| ≠ 0) :
    0 ≤ f64 (npMod (f64 a) |f64 (b.2 j - b.1 j)|) ∧
      f64 (npMod (f64 a) |f64 (b.2 j - b.1 j)|) ≤ b.2 j - b.1 j := by
  have hlt := h.1 j
  have h0 : 0 ≤ f64 (b.2 j - b.1 j) := f64_nonneg (by linarith)
  rw [abs_of_nonneg h0] at hs ⊢
  have hpos : 0 < f64 (b.2 j - b.1 j) := lt_of_le_of_ne h0 (Ne.symm hs)
  have ha' := f64_nonneg ha
  rw [f64_mod ha' hpos]
  obtain ⟨h1, h2, h3⟩ := npMod_bounds ha' hpos
  exact ⟨h1, (lt_of_lt_f64 (f64_mod ha' hpos) h2).le⟩

theorem bhReflectiveR_ok {fl : ℚ → ℚ} {m : Nat} {x y : Mat n d ℚ}
    (h : bhReflectiveR fl b m x = .ok y) : InBox b y := by
  induction m generalizing x with
  | zero =>
    unfold bhReflectiveR at h
    split at h
    · cases h
    · next ha => cases h; rw [← anyOut_false_iff]; simpa using ha
  | succ m ih =>
    unfold bhReflectiveR at h
    split at h
    · exact ih h
    · next ha => cases h; rw [← anyOut_false_iff]; simpa using ha

theorem rowFalse_of {x : Mat n d ℚ} {i : Fin n} (h1 : ¬ rowLow b x i = true)
    (h2 : ¬ rowHigh b x i = true) (j : Fin d) : b.1 j ≤ x i j ∧ x i j ≤ b.2 j := by
  simp only [rowLow, rowHigh, List.any_eq_true, List.mem_finRange, true_and, isLow_iff, isHigh_iff,
    not_exists, not_lt] at h1 h2
  exact ⟨h1 j, h2 j⟩

/-- **C67** (boundary handlers).  In binary64 arithmetic, for bounds that are doubles, the
strategies `nearest`, `reflective`, `random`, `intermediate` and `periodic` return positions inside
the bounds – exactly, not up to rounding – whenever they return (`intermediate` needs the
remembered positions inside). -/
theorem C67_handlers (strategy : String) (hs : strategy ∈ keepingStrategies)
    (b : Bounds d ℚ) (hb : DoubleBounds b) (mem mem' : Option (Mat n d ℚ))
    (hm : strategy = "intermediate" → ∃ m, mem = some m ∧ InBox b m) (r : BHDraw d ℚ)
    (hr : r.Samples) (x y : Mat n d ℚ) (h : bhCallR f64 strategy mem b r x = (mem', .ok y)) :
    InBox b y := by
  simp only [keepingStrategies, List.mem_cons, List.not_mem_nil, or_false] at hs
  rcases hs with rfl | rfl | rfl | rfl | rfl
  · rw [bhCallR, if_pos rfl] at h
    cases h
    exact bhNearest_inBox b (fun j => (hb.1 j).le) x
  · rw [bhCallR, if_neg (by decide), if_pos rfl, Prod.mk.injEq] at h
    exact bhReflectiveR_ok h.2
  · rw [bhCallR, if_neg (by decide), if_neg (by decide), if_neg (by decide), if_pos rfl] at h
    cases h
    intro i j
    unfold bhRandomR
    dsimp only
    split
    · exact redraw_inside hb j (hr j).2
    · next hl =>
      split
      · exact redraw_inside hb j (hr j).1
      · next hh => exact rowFalse_of hl hh j
  · rw [bhCallR, if_neg (by decide), if_neg (by decide), if_neg (by decide), if_neg (by decide),
      if_pos rfl] at h
    obtain ⟨m, rfl, hmb⟩ := hm rfl
    unfold bhIntermediateR at h
    cases h
    intro i j
    dsimp only
    have hlt := hb.1 j
    split
    · exact half_inside hb j (hmb i j) ⟨hlt.le, le_refl _⟩
    · next hh =>
      split
      · exact half_inside hb j (hmb i j) ⟨le_refl _, hlt.le⟩
      · next hl =>
        rw [isLow_iff, not_lt] at hl
        rw [isHigh_iff, not_lt] at hh
        exact ⟨hl, hh⟩
  · rw [bhCallR, if_neg (by decide), if_neg (by decide), if_neg (by decide), if_neg (by decide),
      if_neg (by decide), if_pos rfl, Prod.mk.injEq] at h
    obtain ⟨-, h⟩ := h
    unfold bhPeriodicR at h
    split at h
    · cases h
    · next hz =>
      cases h
      have hne : ∀ i j, (isLow b x i j = true ∨ isHigh b x i j = true) →
          |f64 (b.2 j - b.1 j)| ≠ 0 := by
        intro i j ho h0
        apply hz
        simp only [List.any_eq_true, List.mem_finRange, true_and, Bool.and_eq_true, Bool.or_eq_true,
          decide_eq_true_eq]
        exact ⟨i, j, ho, h0⟩
      intro i j
      dsimp only
      have hlt := hb.1 j
      by_cases hh : isHigh b x i j = true
      · have hl : ¬ isLow b x i j = true := by
          rw [isHigh_iff] at hh; rw [isLow_iff]; intro hl; linarith
        rw [if_pos hh, if_neg hl]
        have := wrap_inside hb j (a := x i j - b.2 j)
          (by rw [isHigh_iff] at hh; linarith) (hne i j (Or.inr hh))
        exact ⟨le_fl_of_le (fl_lb hb j) (by linarith), fl_le_of_le (fl_ub hb j) (by linarith)⟩
      · rw [if_neg hh]
        split
        · next hl =>
          have := wrap_inside hb j (a := b.1 j - x i j)
            (by rw [isLow_iff] at hl; linarith) (hne i j (Or.inl hl))
          exact ⟨le_fl_of_le (fl_lb hb j) (by linarith), fl_le_of_le (fl_ub hb j) (by linarith)⟩
        · next hl =>
          rw [isLow_iff, not_lt] at hl
          rw [isHigh_iff, not_lt] at hh
          exact ⟨hl, hh⟩

theorem bhCallR_mem (fl : ℚ → ℚ) {strategy : String} (hs : strategy ∈ keepingStrategies)
    (m : Mat n d ℚ) (b : Bounds d ℚ) (r : BHDraw d ℚ) (x : Mat n d ℚ) :
    (bhCallR fl strategy (some m) b r x).1 = some m ∨
      ∃ y, bhCallR fl strategy (some m) b r x = (some y, .ok y) := by
  simp only [keepingStrategies, List.mem_cons, List.not_mem_nil, or_false] at hs
  rcases hs with rfl | rfl | rfl | rfl | rfl
  · left; rfl
  · left; rfl
  · left; rfl
  · right; exact ⟨_, rfl⟩
  · left; rfl

end handlers

/-- **C67** (creation).  In binary64 arithmetic `create_swarm` with `center = 1` puts every particle
inside bounds that are doubles. -/
theorem C67_created (b : Bounds d ℚ) (hb : DoubleBounds b) (u : Mat n d ℚ)
    (hu : ∀ i j, IsSample (u i j)) : InBox b (generateInsideR f64 b (fun _ => 1) u) := by
  intro i j
  have := redraw_inside hb j (hu i j)
  unfold generateInsideR
  rw [one_mul, f64_idem, add_comm (b.1 j)]
  exact this

theorem boxInv_iterateR {A : Arith n d ℚ} (hA : A.fl = f64) {cfg : Config n d ℚ} {b : Bounds d ℚ}
    (hk : cfg.kind ≠ .binary) (hcb : cfg.bounds = some b) (hb : DoubleBounds b)
    (hst : cfg.bhStrategy ∈ keepingStrategies) (ev : Mat n d ℚ → Except Err (Costs n ℚ))
    {r : Draw n d ℚ} (hr : r.bh.Samples) (iters i : Nat) (q : List Bool) (s : Opt n d ℚ)
    (hs : BoxInv b s) : BoxInv b (iterateR A cfg ev r iters i q s).1 := by
  have hev : ∀ c, BoxInv b (recordEval c s) := by
    intro c
    obtain ⟨⟨h1, h2, h3, h4⟩, h5⟩ := hs
    refine ⟨⟨h1, fun i j => ?_, ?_, h4⟩, h5⟩
    · rcases recordEval_pbestPos_or c s i with h | h
      · rw [h]; exact h2 i j
      · rw [h]; exact h1 i j
    · intro e he
      simp only [recordEval, List.mem_append, List.mem_singleton] at he
      rcases he with he | rfl
      · exact h3 e he
      · exact h1
  have hrec : ∀ c t g, BoxInv b (recordBestR A t g (recordEval c s)) := by
    intro c t g
    obtain ⟨⟨h1, h2, h3, h4⟩, h5⟩ := hev c
    refine ⟨⟨h1, h2, h3, ?_⟩, h5⟩
    intro x hx
    simp only [recordBestR, Opt.populateHistory, List.mem_append, List.mem_singleton] at hx
    rcases hx with hx | rfl
    · exact h4 x hx
    · exact h1
  have hmove : ∀ s, BoxInv b s → BoxInv b (moveSwarmR A cfg r iters i s).1 := by
    rintro s ⟨⟨h1, h2, h3, h4⟩, m, h5, h6⟩
    have hpos : ∀ sw : Swarm n d ℚ, callPositionR A cfg r s.bhMem sw =
        bhCallR f64 cfg.bhStrategy (some m) b r.bh
          (fun i j => f64 (sw.position i j + sw.velocity i j)) := by
      intro sw
      unfold callPositionR computePositionR
      rw [hcb, h5, hA]
      cases hkk : cfg.kind <;> first | rfl | exact absurd hkk hk
    unfold moveSwarmR
    split
    · exact ⟨⟨h1, h2, h3, h4⟩, m, h5, h6⟩
    · simp only []
      split
      · exact ⟨⟨h1, h2, h3, h4⟩, m, h5, h6⟩
      · next vm v hv =>
        split
        · next bm e hp =>
          rw [hpos] at hp
          refine ⟨⟨h1, h2, h3, h4⟩, m, ?_, h6⟩
          rcases bhCallR_mem f64 hst m b r.bh (fun i j => f64 (s.swarm.position i j + v i j))
            with h' | ⟨y, h'⟩
          · rw [hp] at h'; exact h'
          · rw [hp] at h'; cases h'
        · next bm p hp =>
          rw [hpos] at hp
          have hin := C67_handlers _ hst b hb _ _ (fun _ => ⟨m, rfl, h6⟩) r.bh hr _ _ hp
          refine ⟨⟨hin, h2, h3, h4⟩, ?_⟩
          rcases bhCallR_mem f64 hst m b r.bh (fun i j => f64 (s.swarm.position i j + v i j))
            with h' | ⟨y, h'⟩
          · rw [hp] at h'; exact ⟨m, h', h6⟩
          · rw [hp] at h'; cases h'; exact ⟨p, rfl, hin⟩
  unfold iterateR
  split
  · exact hs
  · next c hc =>
    simp only []
    split
    · next t e hg => exact ⟨⟨(hev c).1.1, (hev c).1.2, (hev c).1.3, (hev c).1.4⟩, (hev c).2⟩
    · next t g hg =>
      split
      · exact hrec c t g
      · have := hmove _ (hrec c t g)
        split
        · next s3 e h => rw [h] at this; exact this
        · next s3 h => rw [h] at this; exact this

/-- **C67**.  In binary64 arithmetic, for any class with continuous positions, bounds that are
doubles, and a boundary strategy other than `shrink`: starting from swarms inside the bounds (see
`C67_created`), after any sequence of calls – whatever the objective, the options, the velocity
strategy and the parts of the arithmetic outside the position update do – every evaluated position,
every recorded position, the current positions and the personal bests are exactly inside the
bounds. -/
theorem C67_all_inside (A : Arith n d ℚ) (hA : A.fl = f64) (cfg : Config n d ℚ) (b : Bounds d ℚ)
    (hk : cfg.kind ≠ .binary) (hcb : cfg.bounds = some b) (hb : DoubleBounds b)
    (hst : cfg.bhStrategy ∈ keepingStrategies) (s : Opt n d ℚ)
    (hs : RunsR A cfg (InBox b) (fun _ => True) (fun r => r.bh.Samples) s) :
    InBox b s.swarm.position ∧ InBox b s.swarm.pbestPos ∧ (∀ e ∈ s.evals, InBox b e.1) ∧
      ∀ x ∈ s.posHistory, InBox b x := by
  have : AllInside b s := by
    induction hs with
    | created pos vel t bm vm pools hp hv => exact ⟨hp, hp, by simp, by simp⟩
    | optimized s ev iters nproc env hs hd ih =>
      refine optimizeR_inv2 A cfg ev iters nproc env (AllInside b) (BoxInv b)
        (fun s hs => boxInv_start hk nproc s hs)
        (fun i q s hs => boxInv_iterateR hA hk hcb hb hst (ev i) (hd i) iters i q s hs) ?_ ?_ s ih
      · rintro s c ⟨⟨h1, h2, h3, h4⟩, -⟩; exact ⟨h1, h2, h3, h4⟩
      · rintro s a c ⟨h1, h2, h3, h4⟩; exact ⟨h1, h2, h3, h4⟩
  exact ⟨this.position, this.pbest, this.evals, this.history⟩

/-! ## C67: what does not survive -/

/-- **C67** (`shrink`).  `shrink` does leave the bounds in binary64 arithmetic: with bounds
[-5, 5], a particle at 0.25 that is moved to -9.25 is put at -5.000000000000001, the double below
-5. -/
theorem C67_shrink_leaves :
    ∃ y : Mat 1 1 ℚ,
      bhCallR f64 "shrink" (some fun _ _ => 1 / 4) (fun _ => -5, fun _ => 5)
        { u := fun _ => 0, l := fun _ => 0, passes := 0 } (fun _ _ => -37 / 4) = (some y, .ok y) ∧
      y 0 0 = -5 - 2⁻¹ ^ 50 ∧ ¬ InBox ((fun _ => -5, fun _ => 5) : Bounds 1 ℚ) y := by
  have h : ∃ y : Mat 1 1 ℚ,
      bhCallR f64 "shrink" (some fun _ _ => 1 / 4) (fun _ => -5, fun _ => 5)
        { u := fun _ => 0, l := fun _ => 0, passes := 0 } (fun _ _ => -37 / 4) = (some y, .ok y) := by
    rw [bhCallR, if_neg (by decide), if_neg (by decide), if_pos rfl]
    unfold bhShrinkR
    dsimp only
    rw [if_neg (by decide +kernel), if_neg (by decide)]
    exact ⟨_, rfl⟩
  obtain ⟨y, hy⟩ := h
  have hv : y 0 0 = -5 - 2⁻¹ ^ 50 := by
    have : (match bhCallR f64 "shrink" (some fun _ _ => 1 / 4) (fun _ => -5, fun _ => 5)
        { u := fun _ => 0, l := fun _ => 0, passes := 0 } (fun _ _ => -37 / 4) with
      | (_, .ok (y : Mat 1 1 ℚ)) => decide (y 0 0 = -5 - 2⁻¹ ^ 50)
      | _ => false) = true := by decide +kernel
    rw [hy] at this
    exact of_decide_eq_true this
  refine ⟨y, hy, hv, fun hin => ?_⟩
  have := (hin 0 0).1
  rw [hv] at this
  norm_num at this

/-- **C67** (`reflective`).  If reflecting `x` at the upper bound rounds to `-x` and reflecting `-x`
at the lower bound rounds to `x`, both outside the bounds, the `while` loop of `reflective` never
ends. -/
theorem C67_reflective_loops (lb ub x : ℚ) (h1 : ub < x) (h2 : -x < lb) (h3 : lb ≤ x)
    (h4 : -x ≤ ub) (h5 : f64 (f64 (2 * ub) - x) = -x) (h6 : f64 (f64 (2 * lb) + x) = x)
    (passes : Nat) :
    bhReflectiveR f64 (fun _ => lb, fun _ => ub) passes (fun _ _ => x : Mat 1 1 ℚ) =
      .error .diverges := by
  have main : ∀ m, bhReflectiveR f64 (fun _ => lb, fun _ => ub) m (fun _ _ => x : Mat 1 1 ℚ) =
        .error .diverges ∧
      bhReflectiveR f64 (fun _ => lb, fun _ => ub) m (fun _ _ => -x : Mat 1 1 ℚ) =
        .error .diverges := by
    have o1 : anyOut (fun _ => lb, fun _ => ub) (fun _ _ => x : Mat 1 1 ℚ) = true := by
      rw [← Bool.not_eq_false, anyOut_false_iff]
      intro hin
      have := (hin 0 0).2
      simp only at this
      linarith
    have o2 : anyOut (fun _ => lb, fun _ => ub) (fun _ _ => -x : Mat 1 1 ℚ) = true := by
      rw [← Bool.not_eq_false, anyOut_false_iff]
      intro hin
      have := (hin 0 0).1
      simp only at this
      linarith
    have p1 : reflectPassR f64 (fun _ => lb, fun _ => ub) (fun _ _ => x : Mat 1 1 ℚ) =
        fun _ _ => -x := by
      funext i j
      unfold reflectPassR
      simp only [isLow, isHigh, decide_eq_true_eq, gt_iff_lt, h1, not_lt.2 h3, if_true, if_false, h5]
    have p2 : reflectPassR f64 (fun _ => lb, fun _ => ub) (fun _ _ => -x : Mat 1 1 ℚ) =
        fun _ _ => x := by
      funext i j
      unfold reflectPassR
      simp only [isLow, isHigh, decide_eq_true_eq, gt_iff_lt, h2, not_lt.2 h4, if_true, if_false,
        sub_neg_eq_add, h6]
    intro m
    induction m with
    | zero => unfold bhReflectiveR; rw [if_pos o1, if_pos o2]; exact ⟨rfl, rfl⟩
    | succ m ih =>
      unfold bhReflectiveR
      rw [if_pos o1, if_pos o2, p1, p2]
      exact ⟨ih.2, ih.1⟩
  exact (main passes).1

/-- **C67** (`reflective`, witness).  With bounds [0, 1] and a proposed position 2^55, `reflective`
does not return. -/
theorem C67_reflective_hangs (passes : Nat) :
    bhReflectiveR f64 (fun _ => 0, fun _ => 1) passes (fun _ _ => 2 ^ 55 : Mat 1 1 ℚ) =
      .error .diverges :=
  C67_reflective_loops 0 1 (2 ^ 55) (by norm_num) (by norm_num) (by norm_num) (by norm_num)
    (by decide +kernel) (by decide +kernel) passes

/-! ## C67: velocity clamp -/

section clamp

variable [IsStrictOrderedRing K]

theorem vhCallR_within {fl : K → K} {strategy : String} (hst : strategy ≠ "zero") {m : Mat n d K}
    {c : Clamp d K} (hc : ∀ j, c.1 j ≤ c.2 j) {kw : VHKw n d K} {v v' : Mat n d K}
    {mem' : Option (Mat n d K)}
    (h : vhCallR fl strategy (some m) (some c) kw v = (mem', .ok v')) : Within c v' := by
  unfold vhCallR at h
  split at h
  · cases h; exact applyClamp_within c hc v
  · split at h
    · unfold vhAdjustR at h
      split at h
      · cases h
      · cases h; exact applyClamp_within c hc _
    · split at h
      · unfold vhInvertR at h
        dsimp only at h
        split at h <;> cases h
        exact applyClamp_within c hc _
      · cases h

theorem computeVelocityR_facts (fl : K → K) (s : Swarm n d K) (clamp : Option (Clamp d K))
    (strategy : String) (mem : Option (Mat n d K)) (bounds : Option (Bounds d K))
    (r1 r2 : Mat n d K) :
    ((computeVelocityR fl s clamp strategy mem bounds r1 r2).1 = mem ∨
      (computeVelocityR fl s clamp strategy mem bounds r1 r2).1 = some s.position) ∧
    ∀ mem' v, computeVelocityR fl s clamp strategy mem bounds r1 r2 = (mem', .ok v) →
      ∃ kw v0, vhCallR fl strategy mem clamp kw v0 = (mem', .ok v) := by
  have key : ∀ v, (vhCallR fl strategy mem clamp
      { position := some s.position, bounds := some bounds } v).1 = mem ∨
      (vhCallR fl strategy mem clamp
      { position := some s.position, bounds := some bounds } v).1 = some s.position := by
    intro v
    unfold vhCallR
    split
    · left; rfl
    · split
      · right; unfold vhAdjustR; dsimp only; cases mem <;> rfl
      · split
        · left; rfl
        · split <;> (left; rfl)
  constructor
  · unfold computeVelocityR
    split
    · next c1 c2 w h1 h2 h3 =>
      dsimp only
      split
      · split
        · exact key _
        · split
          · split
            · exact key _
            · have := key (tempVelocityR fl c1 c2 w r1 r2 s)
              split
              · next he => rw [he] at this; exact this
              · next he => rw [he] at this; exact this
          · left; rfl
      · exact key _
    · left; rfl
  · intro mem' v h
    unfold computeVelocityR at h
    split at h
    · next c1 c2 w h1 h2 h3 =>
      refine ⟨{ position := some s.position, bounds := some bounds },
        tempVelocityR fl c1 c2 w r1 r2 s, ?_⟩
      dsimp only at h
      split at h
      · split at h
        · exact h
        · split at h
          · split at h
            · exact h
            · split at h <;> cases h
          · cases h
      · exact h
    · cases h

theorem clampInv_iterateR {A : Arith n d K} {cfg : Config n d K} {c : Clamp d K}
    (hcc : cfg.clamp = some c) (hc : ∀ j, c.1 j ≤ c.2 j) (hst : cfg.vhStrategy ≠ "zero")
    (ev : Mat n d K → Except Err (Costs n K)) (r : Draw n d K) (iters i : Nat) (q : List Bool)
    (s : Opt n d K) (hs : ClampInv c s ∧ s.vhMem.isSome) :
    ClampInv c (iterateR A cfg ev r iters i q s).1 ∧
      (iterateR A cfg ev r iters i q s).1.vhMem.isSome := by
  have hrec : ∀ co t g, ClampInv c (recordBestR A t g (recordEval co s)) ∧
      (recordBestR A t g (recordEval co s)).vhMem.isSome := by
    intro co t g
    obtain ⟨⟨h1, h2⟩, h3⟩ := hs
    refine ⟨⟨h1, fun v hv => ?_⟩, h3⟩
    simp only [recordBestR, Opt.populateHistory, List.mem_append, List.mem_singleton] at hv
    rcases hv with hv | rfl
    · exact h2 v hv
    · exact h1
  have hmove : ∀ s : Opt n d K, ClampInv c s ∧ s.vhMem.isSome →
      ClampInv c (moveSwarmR A cfg r iters i s).1 ∧
        (moveSwarmR A cfg r iters i s).1.vhMem.isSome := by
    rintro s ⟨⟨h1, h2⟩, h3⟩
    obtain ⟨m, hm⟩ := Option.isSome_iff_exists.1 h3
    unfold moveSwarmR
    split
    · exact ⟨⟨h1, h2⟩, h3⟩
    · next o ho =>
      have hf := computeVelocityR_facts A.fl { s.swarm with options := o } cfg.clamp cfg.vhStrategy
        s.vhMem (velBounds cfg) r.r1 r.r2
      have hsome : ∀ vm x, computeVelocityR A.fl { s.swarm with options := o } cfg.clamp
          cfg.vhStrategy s.vhMem (velBounds cfg) r.r1 r.r2 = (vm, x) → vm.isSome := by
        intro vm x h
        rw [h] at hf
        rcases hf.1 with h | h
        · simp only at h; rw [h]; exact h3
        · simp only at h; rw [h]; rfl
      simp only []
      split
      · next vm e hv => exact ⟨⟨h1, h2⟩, hsome _ _ hv⟩
      · next vm v hv =>
        obtain ⟨kw, v0, hk⟩ := hf.2 _ _ hv
        rw [hm, hcc] at hk
        have hw := vhCallR_within hst hc hk
        split
        · exact ⟨⟨hw, h2⟩, hsome _ _ hv⟩
        · exact ⟨⟨hw, h2⟩, hsome _ _ hv⟩
  unfold iterateR
  split
  · exact hs
  · next co hco =>
    simp only []
    split
    · next t e hg => exact ⟨⟨hs.1.1, hs.1.2⟩, hs.2⟩
    · next t g hg =>
      split
      · exact hrec co t g
      · have := hmove _ (hrec co t g)
        split
        · next s3 e h => rw [h] at this; exact this
        · next s3 h => rw [h] at this; exact this

/-- **C67** (velocity clamp).  For every arithmetic whatsoever: with `velocity_clamp=(lo, hi)` and
any strategy but `zero`, if swarms are created with velocities within the clamp, then after any
sequence of calls the current velocities and every entry of `velocity_history` are within it. -/
theorem C67_clamp (A : Arith n d K) (cfg : Config n d K) (c : Clamp d K)
    (hcc : cfg.clamp = some c) (hc : ∀ j, c.1 j ≤ c.2 j) (hst : cfg.vhStrategy ≠ "zero")
    (s : Opt n d K) (hs : RunsR A cfg (fun _ => True)
      (fun v => ∀ i j, c.1 j ≤ v i j ∧ v i j ≤ c.2 j) (fun _ => True) s) :
    (∀ i j, c.1 j ≤ s.swarm.velocity i j ∧ s.swarm.velocity i j ≤ c.2 j) ∧
      ∀ v ∈ s.velocityHistory, ∀ i j, c.1 j ≤ v i j ∧ v i j ≤ c.2 j := by
  have : ClampInv c s := by
    induction hs with
    | created pos vel t bm vm pools hp hv => exact ⟨hv, by simp⟩
    | optimized s ev iters nproc env hs hd ih =>
      refine optimizeR_inv2 A cfg ev iters nproc env (ClampInv c)
        (fun s => ClampInv c s ∧ s.vhMem.isSome) ?_ ?_ ?_ ?_ s ih
      · rintro s ⟨h1, h2⟩; exact ⟨⟨h1, h2⟩, rfl⟩
      · intro i q s hs; exact clampInv_iterateR hcc hc hst (ev i) (env i) iters i q s hs
      · rintro s a ⟨⟨h1, h2⟩, -⟩; exact ⟨h1, h2⟩
      · rintro s a b ⟨h1, h2⟩; exact ⟨h1, h2⟩
  exact ⟨this.velocity, this.history⟩

end clamp

/-- **C67** (creation).  In binary64 arithmetic the initial velocities are within a clamp whose ends
are doubles. -/
theorem C67_created_velocity (c : Clamp d ℚ) (hc : ∀ j, c.1 j ≤ c.2 j)
    (hd : ∀ j, IsDouble (c.1 j) ∧ IsDouble (c.2 j)) (u : Mat n d ℚ)
    (hu : ∀ i j, IsSample (u i j)) (i : Fin n) (j : Fin d) :
    c.1 j ≤ generateVelocityR f64 c u i j ∧ generateVelocityR f64 c u i j ≤ c.2 j := by
  unfold generateVelocityR
  have h1 := f64_of_isDouble (hd j).1
  have h2 := f64_of_isDouble (hd j).2
  have h0 : 0 ≤ f64 (f64 (c.2 j - c.1 j) * u i j) :=
    f64_nonneg (mul_nonneg (f64_nonneg (by linarith [hc j])) (isSample_nonneg (hu i j)))
  refine ⟨le_fl_of_le h1 (by linarith), fl_le_of_le h2 ?_⟩
  rcases (hc j).eq_or_lt with he | hl
  · have hz : f64 0 = 0 := by decide +kernel
    rw [he, sub_self, hz, zero_mul, hz, zero_add]
  · have := f64_sample hl h1 h2 (hu i j)
    linarith

/-! ## Examples -/

namespace Ex

/-- Binary64 arithmetic, with options that stay as they are. -/
def fArith (n d : Nat) : Arith n d ℚ where
  fl := f64
  mean := npMean
  sig := id
  oh := fun _ _ _ s => .ok s.options

/-- The largest sample, for every draw. -/
def fdraw (n d : Nat) : Draw n d ℚ :=
  { draw n d with
    r1 := fun _ _ => 1 - 2⁻¹ ^ 53
    r2 := fun _ _ => 1 - 2⁻¹ ^ 53
    bh := ⟨fun _ => 1 - 2⁻¹ ^ 53, fun _ => 1 - 2⁻¹ ^ 53, 8⟩ }

theorem fdraw_samples (n d : Nat) : (fdraw n d).bh.Samples := by
  have : IsSample (1 - 2⁻¹ ^ 53) := ⟨2 ^ 53 - 1, by norm_num, by norm_num⟩
  exact fun j => ⟨this, this⟩

/-- A bounded configuration: bounds [-1, 3], clamp [-3, 3], options whose products are rounded. -/
def fcfg (strategy : String) : Config 2 1 ℚ where
  kind := .globalBest
  options := [("c1", 3 / 2), ("c2", 1 + 2⁻¹ ^ 52), ("w", 3)]
  bounds := some (fun _ => -1, fun _ => 3)
  clamp := some (fun _ => -3, fun _ => 3)
  bhStrategy := strategy
  center := fun _ => 1

/-- Two particles at 1/2 and 5/2 (+ one unit in the last place). -/
def fstart : Opt 2 1 ℚ where
  swarm := mkSwarm (fun i _ => 1 / 2 + 2 * (i : Nat) + 2⁻¹ ^ 51 * (i : Nat)) (fun _ _ => 1)
    (fcfg "periodic").options

end Ex

/-- Non-vacuity: the bounds, the draws and the swarm of the example meet the hypotheses. -/
example : DoubleBounds ((fun _ => -1, fun _ => 3) : Bounds 1 ℚ) ∧ (Ex.fdraw 2 1).bh.Samples ∧
    InBox ((fun _ => -1, fun _ => 3) : Bounds 1 ℚ) Ex.fstart.swarm.position ∧
    "periodic" ∈ keepingStrategies := by
  refine ⟨⟨fun _ => by norm_num, fun _ => ⟨⟨-1, 0, by norm_num, by norm_num, by norm_num⟩,
    ⟨3, 0, by norm_num, by norm_num, by norm_num⟩⟩⟩, Ex.fdraw_samples 2 1, ?_, by decide⟩
  unfold InBox
  decide +kernel

/-- Non-vacuity: for each of the five strategies the run in binary64 returns after three
evaluations, particles have left the bounds on the way, and the result differs from the exact
run. -/
example : (["nearest", "reflective", "random", "intermediate", "periodic"].all fun st =>
    match optimizeR (Ex.fArith 2 1) (Ex.fcfg st) (Ex.sphere 2 1) 3 none (fun _ => Ex.fdraw 2 1)
        Ex.fstart,
      optimize (Ex.fcfg st) (Ex.sphere 2 1) 3 none (fun _ => Ex.fdraw 2 1) Ex.fstart with
    | (s, .ok (c, p)), (s', .ok _) => decide (s.evals.length = 3 ∧ s'.evals.length = 3 ∧
        (∃ i, s.swarm.velocity i 0 ≠ s'.swarm.velocity i 0) ∧ p 0 = 1 / 2)
    | _, _ => false) = true := by decide +kernel

end PySwarms
