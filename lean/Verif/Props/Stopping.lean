import Verif.Props.Outcome

/-!
# Stopping, histories (C27, C28, C59) and the 31-call limit of runs (C12)
-/

set_option linter.unusedSectionVars false

namespace PySwarms

variable {n d : Nat} {K : Type} [Field K] [LinearOrder K] [IsStrictOrderedRing K] [Transc K]
  [FloorRing K]

/-! ## Specification of early stopping -/

/-- The change from `prev` to `now` is small: `|now - prev| < ftol * (1 + |prev|)`. -/
def SmallChange (ftol prev now : XR K) : Prop :=
  XR.lt (XR.abs (XR.sub now prev)) (XR.mul ftol (XR.add (XR.fin 1) (XR.abs prev))) = true

/-- After entry `i` of the list of best costs `H` the criterion is met: there have been more than `w`
entries, and the last `w` changes (up to the one leading to entry `i`) were small. -/
def StopsAfter (w : Nat) (ftol : XR K) (H : List (XR K)) (i : Nat) : Prop :=
  w ≤ i ∧ ∀ t (h : t + 1 < H.length), i < t + 1 + w → t + 1 ≤ i → SmallChange ftol H[t] H[t + 1]

/-! ## The deque -/

/-- The stop test values along a list of best costs, the best before being `b`. -/
def deltas (ftol : XR K) : XR K → List (XR K) → List Bool
  | _, [] => []
  | b, x :: H => ftolDelta ftol x b :: deltas ftol x H

theorem deltas_length (ftol b : XR K) (H : List (XR K)) : (deltas ftol b H).length = H.length := by
  induction H generalizing b with
  | nil => rfl
  | cons x H ih => simp [deltas, ih]

theorem deltas_append (ftol b x : XR K) (H : List (XR K)) :
    deltas ftol b (H ++ [x]) = deltas ftol b H ++ [ftolDelta ftol x (H.getLastD b)] := by
  induction H generalizing b with
  | nil => rfl
  | cons y H ih =>
    simp only [List.cons_append, deltas, ih]
    congr 4
    cases H <;> rfl

theorem deltas_getElem (ftol b : XR K) (H : List (XR K)) (t : Nat) (h : t + 1 < H.length) :
    (deltas ftol b H)[t + 1]'(by rw [deltas_length]; exact h) = ftolDelta ftol H[t + 1] H[t] := by
  induction H generalizing b t with
  | nil => simp at h
  | cons x H ih =>
    cases H with
    | nil => simp at h
    | cons y H =>
      cases t with
      | zero => rfl
      | succ t =>
        have := ih x t (by simpa using h)
        simpa [deltas] using this

/-- The deque holds the last `w` test values. -/
theorem dequeAppend_drop (w : Nat) (D : List Bool) (x : Bool) :
    dequeAppend w (D.drop (D.length - w)) x = (D ++ [x]).drop ((D ++ [x]).length - w) := by
  unfold dequeAppend
  by_cases h : D.length ≤ w
  · have h1 : D.length - w = 0 := by omega
    rw [h1, List.drop_zero]
  · rcases Nat.eq_zero_or_pos w with rfl | hw
    · simp
    · have h1 : D.drop (D.length - w) ++ [x] = (D ++ [x]).drop (D.length - w) := by
        rw [List.drop_append_of_le_length (by omega)]
      rw [h1, List.drop_drop]
      congr 1
      simp
      omega

theorem stops_iff (w : Nat) (ftol b : XR K) (H : List (XR K)) (i : Nat) (hi : i + 1 = H.length) :
    StopsAfter w ftol H i ↔
      (w ≤ i ∧ ((deltas ftol b H).drop ((deltas ftol b H).length - w)).all id = true) := by
  unfold StopsAfter
  apply and_congr_right
  intro hwi
  rw [List.all_eq_true]
  constructor
  · intro h x hx
    obtain ⟨k, hk, rfl⟩ := List.getElem_of_mem hx
    rw [List.length_drop] at hk
    rw [deltas_length] at hk
    rw [List.getElem_drop]
    have hk' : H.length - w + k = (H.length - w + k - 1) + 1 := by omega
    have key : ∀ a, (ha : a = H.length - w + k) → (hl : a < (deltas ftol b H).length) →
        (deltas ftol b H)[a] = true := by
      intro a ha hl
      obtain ⟨t, rfl⟩ : ∃ t, a = t + 1 := ⟨a - 1, by omega⟩
      rw [deltas_length] at hl
      rw [deltas_getElem ftol b H t hl]
      exact h t hl (by omega) (by omega)
    simp only [id_eq]
    apply key
    rw [deltas_length]
  · intro h t ht h1 h2
    have hm : (deltas ftol b H)[t + 1]'(by rw [deltas_length]; exact ht) ∈
        (deltas ftol b H).drop ((deltas ftol b H).length - w) := by
      rw [List.mem_iff_getElem]
      refine ⟨t + 1 - (H.length - w), ?_, ?_⟩
      · rw [List.length_drop, deltas_length]; omega
      · rw [List.getElem_drop]
        congr 1
        rw [deltas_length]
        omega
    have := h _ hm
    rw [deltas_getElem ftol b H t ht] at this
    exact this

/-- What a loop that is left normally has appended. -/
theorem loop_stopping (cfg : Config n d K) (ev : Nat → Mat n d K → Except Err (Costs n K))
    (env : Nat → Draw n d K) (iters : Nat) (base : List (XR K)) (b : XR K) (m : Nat) :
    ∀ (i : Nat) (q : List Bool) (s s' : Opt n d K) (H0 : List (XR K)),
      s.costHistory = base ++ H0 → H0.length = i → s.swarm.bestCostVal = H0.getLastD b →
      q = (deltas cfg.ftol b H0).drop ((deltas cfg.ftol b H0).length - cfg.window) →
      loop cfg ev env iters m i q s = (s', .ok ()) →
      ∃ H1, s'.costHistory = base ++ (H0 ++ H1) ∧ H1.length ≤ m ∧
        (∀ j, i ≤ j → j + 1 < (H0 ++ H1).length →
          ¬ StopsAfter cfg.window cfg.ftol ((H0 ++ H1).take (j + 1)) j) ∧
        (H1.length < m → H1 ≠ [] ∧
          StopsAfter cfg.window cfg.ftol (H0 ++ H1) ((H0 ++ H1).length - 1)) := by
  induction m with
  | zero =>
    intro i q s s' H0 h1 h2 h3 h4 h
    rw [loop] at h
    cases h
    exact ⟨[], by simpa using h1, by simp, fun j hj hl => by simp at hl; omega, by simp⟩
  | succ m ih =>
    intro i q s s' H0 h1 h2 h3 h4 h
    have hcs := iterate_cases cfg (ev i) (env i) iters i q s
    rw [loop] at h
    generalize iterate cfg (ev i) (env i) iters i q s = o at h hcs
    have hq : ∀ x, dequeAppend cfg.window q (ftolDelta cfg.ftol x s.swarm.bestCostVal) =
        (deltas cfg.ftol b (H0 ++ [x])).drop
          ((deltas cfg.ftol b (H0 ++ [x])).length - cfg.window) := by
      intro x
      rw [h4, dequeAppend_drop, deltas_append, h3]
    obtain ⟨s1, e | f⟩ := o
    · cases h
    · simp only at hcs
      cases hcs with
      | stop c t g h' hg hi hall =>
        cases h
        refine ⟨[g.2.getD XR.pinf], ?_, by simp, ?_, fun _ => ⟨by simp, ?_⟩⟩
        · show s.costHistory ++ [g.2.getD XR.pinf] = _
          rw [h1, List.append_assoc]
        · intro j hj hl
          simp at hl
          omega
        · have hl : (H0 ++ [g.2.getD XR.pinf]).length - 1 = i := by simp [h2]
          rw [hl, stops_iff _ _ b _ _ (by simp [h2])]
          refine ⟨hi, ?_⟩
          rw [hq] at hall
          exact hall
      | moved c t g _ h' hg hns hm =>
        have hf := moveSwarm_frame cfg (env i) iters i (recordBest t g (recordEval c s))
        rw [hm] at hf
        simp only at hf
        obtain ⟨-, -, -, hbc, -, -, hch, -⟩ := hf
        have hbv : s1.swarm.bestCostVal = g.2.getD XR.pinf := by
          unfold Swarm.bestCostVal; rw [hbc]; rfl
        obtain ⟨H1, e1, e2, e3, e4⟩ := ih (i + 1) _ s1 s' (H0 ++ [g.2.getD XR.pinf])
          (by rw [hch]; show s.costHistory ++ [g.2.getD XR.pinf] = _; rw [h1, List.append_assoc])
          (by simp [h2]) (by rw [hbv]; simp) (hq _) h
        refine ⟨g.2.getD XR.pinf :: H1, ?_, by simp; omega, ?_, ?_⟩
        · rw [e1, List.append_assoc]; rfl
        · intro j hj hl
          rcases Nat.eq_or_lt_of_le hj with rfl | hlt
          · have htk : (H0 ++ g.2.getD XR.pinf :: H1).take (i + 1) =
                H0 ++ [g.2.getD XR.pinf] := by
              rw [← h2, List.take_append]
              simp
            rw [htk, stops_iff _ _ b _ _ (by simp [h2]), ← hq]
            exact hns
          · have := e3 j hlt (by simpa using hl)
            rwa [List.append_assoc] at this
        · intro hlt
          have := (e4 (by simpa using hlt)).2
          rw [List.append_assoc] at this
          exact ⟨by simp, this⟩

/-! ## C27 -/

/-- C27: a call that returns has appended a list `H` of at most `iters` best costs; it did not stop
before the criterion was met and, if it performed fewer than `iters` iterations, the criterion was
met after its last entry. -/
theorem C27_exact (cfg : Config n d K) (ev : Nat → Mat n d K → Except Err (Costs n K))
    (iters : Nat) (nproc : Option Nat) (env : Nat → Draw n d K) (s s' : Opt n d K)
    (v : XR K × Vec d K) (h : optimize cfg ev iters nproc env s = (s', .ok v)) :
    ∃ H, s'.costHistory = s.costHistory ++ H ∧ H.length ≤ iters ∧
      (∀ i, i + 1 < H.length → ¬ StopsAfter cfg.window cfg.ftol (H.take (i + 1)) i) ∧
      (H.length < iters → H ≠ [] ∧ StopsAfter cfg.window cfg.ftol H (H.length - 1)) := by
  obtain ⟨s1, hl, rfl, -, -⟩ := optimize_ok cfg ev iters nproc env s s' v.1 v.2 h
  obtain ⟨H, h1, h2, h3, h4⟩ := loop_stopping cfg ev env iters s.costHistory
    s.swarm.bestCostVal iters 0 [] (startState cfg nproc s) s1 [] (by simp [startState, prepare])
    rfl rfl (by simp [deltas]) hl
  exact ⟨H, by simpa using h1, h2, fun i hi => by simpa using h3 i (by omega) (by simpa using hi),
    by simpa using h4⟩

/-- C27: hence at least `min(iters, ftol_iter + 1)` entries are recorded. -/
theorem C27_at_least (cfg : Config n d K) (ev : Nat → Mat n d K → Except Err (Costs n K))
    (iters : Nat) (nproc : Option Nat) (env : Nat → Draw n d K) (s s' : Opt n d K)
    (v : XR K × Vec d K) (h : optimize cfg ev iters nproc env s = (s', .ok v)) :
    s.costHistory.length + min iters (cfg.window + 1) ≤ s'.costHistory.length := by
  obtain ⟨H, h1, h2, h3, h4⟩ := C27_exact cfg ev iters nproc env s s' v h
  rw [h1, List.length_append]
  by_cases hlt : H.length < iters
  · obtain ⟨hne, hs, -⟩ := h4 hlt
    have : 0 < H.length := List.length_pos_iff.2 hne
    omega
  · omega

theorem not_small {ftol : XR K} (hf : ∀ a, ftol = XR.fin a → a ≤ 0) (hp : ftol ≠ XR.pinf)
    (x y : XR K) : ¬ SmallChange ftol x y := by
  unfold SmallChange
  have habs : ∀ z : XR K, XR.lt (XR.abs z) (XR.fin 0) = false := by
    intro z
    cases z with
    | nan => rfl
    | ninf => rfl
    | pinf => rfl
    | fin a =>
      by_cases h : a < 0
      · simp [XR.abs, h, XR.lt]; exact le_of_lt h
      · simpa [XR.abs, h, XR.lt] using h
  have hrhs : XR.mul ftol (XR.add (XR.fin 1) (XR.abs x)) = XR.nan ∨
      XR.mul ftol (XR.add (XR.fin 1) (XR.abs x)) = XR.ninf ∨
      ∃ a, a ≤ 0 ∧ XR.mul ftol (XR.add (XR.fin 1) (XR.abs x)) = XR.fin a := by
    have hx : XR.add (XR.fin 1) (XR.abs x) = XR.nan ∨ XR.add (XR.fin 1) (XR.abs x) = XR.pinf ∨
        ∃ a : K, 0 < a ∧ XR.add (XR.fin 1) (XR.abs x) = XR.fin a := by
      cases x with
      | nan => left; rfl
      | ninf => right; left; rfl
      | pinf => right; left; rfl
      | fin a =>
        right; right
        by_cases h : a < 0
        · exact ⟨1 + -a, by linarith, by simp [XR.abs, h, XR.add]⟩
        · exact ⟨1 + a, by linarith, by simp [XR.abs, h, XR.add]⟩
    rcases hx with h | h | ⟨a, ha, h⟩ <;> rw [h]
    · left; cases ftol <;> rfl
    · cases ftol with
      | nan => left; rfl
      | ninf => right; left; rfl
      | pinf => exact absurd rfl hp
      | fin b =>
        have := hf b rfl
        have e : XR.mul (XR.fin b) XR.pinf = if b < 0 then XR.ninf else XR.nan := by
          simp [XR.mul, XR.infTimes, not_lt.2 this]
        rw [e]
        split
        · right; left; rfl
        · left; rfl
    · cases ftol with
      | nan => left; rfl
      | ninf => right; left; simp [XR.mul, XR.infTimes, ha]
      | pinf => exact absurd rfl hp
      | fin b =>
        right; right
        exact ⟨b * a, mul_nonpos_of_nonpos_of_nonneg (hf b rfl) (le_of_lt ha), rfl⟩
  rcases hrhs with h | h | ⟨a, ha, h⟩ <;> rw [h]
  · generalize XR.abs (XR.sub y x) = z; cases z <;> simp [XR.lt]
  · generalize XR.abs (XR.sub y x) = z; cases z <;> simp [XR.lt]
  · have := habs (XR.sub y x)
    revert this
    generalize XR.abs (XR.sub y x) = z
    cases z with
    | nan => simp [XR.lt]
    | ninf => simp [XR.lt]
    | pinf => simp [XR.lt]
    | fin c => simp only [XR.lt, decide_eq_false_iff_not, decide_eq_true_eq]; intro h; linarith

/-- C27: if `ftol` is not positive (in particular the default `-inf`; also `nan`), exactly `iters`
entries are recorded. -/
theorem C27_no_stop (cfg : Config n d K) (hw : 0 < cfg.window)
    (hf : ∀ a, cfg.ftol = XR.fin a → a ≤ 0) (hp : cfg.ftol ≠ XR.pinf)
    (ev : Nat → Mat n d K → Except Err (Costs n K))
    (iters : Nat) (nproc : Option Nat) (env : Nat → Draw n d K) (s s' : Opt n d K)
    (v : XR K × Vec d K) (h : optimize cfg ev iters nproc env s = (s', .ok v)) :
    s'.costHistory.length = s.costHistory.length + iters := by
  obtain ⟨H, h1, h2, h3, h4⟩ := C27_exact cfg ev iters nproc env s s' v h
  rw [h1, List.length_append]
  by_cases hlt : H.length < iters
  · obtain ⟨hne, hs, hall⟩ := h4 hlt
    have : 0 < H.length := List.length_pos_iff.2 hne
    exact absurd (hall (H.length - 2) (by omega) (by omega) (by omega)) (not_small hf hp _ _)
  · omega

/-- C27: with a positive `ftol`, a call whose best cost is finite and never changes records exactly
`min(iters, ftol_iter + 1)` entries. -/
theorem C27_constant (cfg : Config n d K) (a y : K) (ha : 0 < a)
    (hf : cfg.ftol = XR.fin a) (ev : Nat → Mat n d K → Except Err (Costs n K))
    (iters : Nat) (nproc : Option Nat) (env : Nat → Draw n d K) (s s' : Opt n d K)
    (v : XR K × Vec d K) (h : optimize cfg ev iters nproc env s = (s', .ok v)) (H : List (XR K))
    (hH : s'.costHistory = s.costHistory ++ H) (hc : ∀ x ∈ H, x = XR.fin y) :
    H.length = min iters (cfg.window + 1) := by
  obtain ⟨H', h1, h2, h3, h4⟩ := C27_exact cfg ev iters nproc env s s' v h
  rw [hH] at h1
  obtain rfl := List.append_cancel_left h1
  have hsmall : SmallChange cfg.ftol (XR.fin y) (XR.fin y) := by
    have h1 : XR.abs (XR.sub (XR.fin y) (XR.fin y)) = XR.fin 0 := by
      simp [XR.sub, XR.neg, XR.add, XR.abs]
    unfold SmallChange
    rw [hf, h1]
    have habs : 0 ≤ |y| := abs_nonneg y
    by_cases hy : y < 0
    · simp only [XR.abs, hy, if_true, XR.add, XR.mul, XR.lt, decide_eq_true_eq]
      exact mul_pos ha (by linarith)
    · simp only [XR.abs, hy, if_false, XR.add, XR.mul, XR.lt, decide_eq_true_eq]
      exact mul_pos ha (by linarith)
  have hlow : min iters (cfg.window + 1) ≤ H.length := by
    have := C27_at_least cfg ev iters nproc env s s' v h
    rw [hH, List.length_append] at this
    omega
  by_contra hne
  have hgt : cfg.window + 1 < H.length := by omega
  apply h3 cfg.window hgt
  refine ⟨le_refl _, fun t ht _ _ => ?_⟩
  rw [hc _ (List.mem_of_mem_take (List.getElem_mem (by omega : t < (H.take (cfg.window + 1)).length))),
    hc _ (List.mem_of_mem_take (List.getElem_mem ht))]
  exact hsmall

/-- Non-vacuity of C27: with `ftol = 1/10`, `ftol_iter = 2` and a constant objective a call with
`iters = 10` stops after 3 entries; with the default `ftol` it records 10. -/
example : (match construct { Ex.gcfg 2 1 with ftol := .fin (1 / 10), ftolIter := .int 2 }
      (Ex.init 2 1) (Ex.init 2 1) with
    | .ok s => match optimize { Ex.gcfg 2 1 with ftol := .fin (1 / 10), ftolIter := .int 2 }
        (fun _ _ => .ok fun _ => .fin 7) 10 none (fun _ => Ex.draw 2 1) s with
      | (s', .ok _) => decide (s'.costHistory = [.fin 7, .fin 7, .fin 7])
      | _ => false
    | _ => false) = true := by decide +kernel

example : (match construct (Ex.gcfg 2 1) (Ex.init 2 1) (Ex.init 2 1) with
    | .ok s => match optimize (Ex.gcfg 2 1)
        (fun _ _ => .ok fun _ => .fin 7) 10 none (fun _ => Ex.draw 2 1) s with
      | (s', .ok _) => decide (s'.costHistory.length = 10)
      | _ => false
    | _ => false) = true := by decide +kernel

/-! ## C28, C59 -/

/-- C28: in every reachable state, also after exceptions, the five histories have equal length. -/
theorem C28_equal_lengths (cfg : Config n d K) (s : Opt n d K) (h : Reachable cfg s) :
    s.meanPbestHistory.length = s.costHistory.length ∧
      s.meanNeighborHistory.length = s.costHistory.length ∧
      s.posHistory.length = s.costHistory.length ∧
      s.velocityHistory.length = s.costHistory.length := by
  refine reachable_inv cfg (fun s => s.meanPbestHistory.length = s.costHistory.length ∧
      s.meanNeighborHistory.length = s.costHistory.length ∧
      s.posHistory.length = s.costHistory.length ∧
      s.velocityHistory.length = s.costHistory.length) ?_ ?_ s h
  · intro r sw t a b p hsw; simp
  · intro ev iters nproc env s hs
    refine optimize_inv cfg ev iters nproc env (fun s => s.meanPbestHistory.length =
        s.costHistory.length ∧ s.meanNeighborHistory.length = s.costHistory.length ∧
        s.posHistory.length = s.costHistory.length ∧
        s.velocityHistory.length = s.costHistory.length) (fun s _ _ _ h => h) (fun s h => h) ?_ s hs
    intro i q s hs
    refine iterate_inv cfg (ev i) (env i) iters i q (fun s => s.meanPbestHistory.length =
        s.costHistory.length ∧ s.meanNeighborHistory.length = s.costHistory.length ∧
        s.posHistory.length = s.costHistory.length ∧
        s.velocityHistory.length = s.costHistory.length) (fun s c h _ => h) (fun s t h => h)
        ?_ ?_ s hs
    · intro s t g h
      simpa [recordBest, Opt.populateHistory] using h
    · intro s h
      have hf := moveSwarm_frame cfg (env i) iters i s
      simp only at hf
      obtain ⟨-, -, -, -, -, -, h1, h2, h3, h4, h5, -⟩ := hf
      rw [h1, h2, h3, h4, h5]
      exact h

/-- C59: in every reachable state `mean_neighbor_history` is the same list as `cost_history`. -/
theorem C59_mean_neighbor (cfg : Config n d K) (s : Opt n d K) (h : Reachable cfg s) :
    s.meanNeighborHistory = s.costHistory := by
  refine reachable_inv cfg (fun s => s.meanNeighborHistory = s.costHistory) ?_ ?_ s h
  · intro r sw t a b p hsw; rfl
  · intro ev iters nproc env s hs
    refine optimize_inv cfg ev iters nproc env (fun s => s.meanNeighborHistory = s.costHistory)
      (fun s _ _ _ h => h) (fun s h => h) ?_ s hs
    intro i q s hs
    refine iterate_inv cfg (ev i) (env i) iters i q (fun s => s.meanNeighborHistory =
      s.costHistory) (fun s c h _ => h) (fun s t h => h) ?_ ?_ s hs
    · intro s t g h
      simp [recordBest, Opt.populateHistory, h]
    · intro s h
      have hf := moveSwarm_frame cfg (env i) iters i s
      simp only at hf
      obtain ⟨-, -, -, -, -, -, h1, h2, h3, -⟩ := hf
      rw [h1, h3]
      exact h

/-- C28: a call adds at most `iters` entries, however it ends. -/
theorem C28_at_most (cfg : Config n d K) (ev : Nat → Mat n d K → Except Err (Costs n K))
    (iters : Nat) (nproc : Option Nat) (env : Nat → Draw n d K) (s : Opt n d K) :
    ∃ H, (optimize cfg ev iters nproc env s).1.costHistory = s.costHistory ++ H ∧
      H.length ≤ iters := by
  have hloop : ∀ m i q (s : Opt n d K), ∃ H, (loop cfg ev env iters m i q s).1.costHistory =
      s.costHistory ++ H ∧ H.length ≤ m := by
    intro m
    induction m with
    | zero => intro i q s; exact ⟨[], by simp [loop], by simp⟩
    | succ m ih =>
      intro i q s
      have hcs := iterate_cases cfg (ev i) (env i) iters i q s
      rw [loop]
      generalize iterate cfg (ev i) (env i) iters i q s = o at hcs ⊢
      obtain ⟨s1, e | f⟩ := o
      · simp only at hcs ⊢
        cases hcs with
        | evalError e h => exact ⟨[], by simp, by simp⟩
        | gbestError c t e h hg => exact ⟨[], by simp [recordEval], by simp⟩
        | moveError c t g _ e h hg hns hm =>
          have hf := moveSwarm_frame cfg (env i) iters i (recordBest t g (recordEval c s))
          rw [hm] at hf
          exact ⟨[_], hf.2.2.2.2.2.2.1, by simp⟩
      · simp only at hcs
        cases hcs with
        | stop c t g h hg hi hq => exact ⟨[_], rfl, by simp⟩
        | moved c t g _ h hg hns hm =>
          have hf := moveSwarm_frame cfg (env i) iters i (recordBest t g (recordEval c s))
          rw [hm] at hf
          obtain ⟨H, h1, h2⟩ := ih (i + 1) (dequeAppend cfg.window q (ftolDelta cfg.ftol
            (recordBest t g (recordEval c s)).swarm.bestCostVal s.swarm.bestCostVal)) s1
          refine ⟨(g.2.getD XR.pinf) :: H, ?_, by simp; omega⟩
          dsimp only
          rw [h1, hf.2.2.2.2.2.2.1]
          simp [recordBest, Opt.populateHistory, recordEval, Swarm.bestCostVal]
  have hl := hloop iters 0 [] (startState cfg nproc s)
  have hc := optimize_cases cfg ev iters nproc env s
  generalize (optimize cfg ev iters nproc env s).1 = s' at hc ⊢
  generalize (optimize cfg ev iters nproc env s).2 = o at hc
  cases hc with
  | badPool h => exact ⟨[], by simp, by simp⟩
  | loopError s1 e hp h => rw [h] at hl; exact hl
  | finishError s1 e hp h hf => rw [h] at hl; exact hl
  | done r hp s1 h hf => rw [h] at hl; exact hl

theorem aligned_optimize (cfg : Config n d K) (ev : Nat → Mat n d K → Except Err (Costs n K))
    (iters : Nat) (nproc : Option Nat) (env : Nat → Draw n d K) (s : Opt n d K)
    (v : XR K × Vec d K) (h : (optimize cfg ev iters nproc env s).2 = .ok v)
    (hs : s.evals.map Prod.fst = s.posHistory) :
    (optimize cfg ev iters nproc env s).1.evals.map Prod.fst =
      (optimize cfg ev iters nproc env s).1.posHistory := by
  have hloop : ∀ m i q (s s' : Opt n d K), s.evals.map Prod.fst = s.posHistory →
      loop cfg ev env iters m i q s = (s', .ok ()) → s'.evals.map Prod.fst = s'.posHistory := by
    intro m
    induction m with
    | zero => intro i q s s' hs h; rw [loop] at h; cases h; exact hs
    | succ m ih =>
      intro i q s s' hs h
      have hcs := iterate_cases cfg (ev i) (env i) iters i q s
      rw [loop] at h
      generalize iterate cfg (ev i) (env i) iters i q s = o at hcs h
      obtain ⟨s1, e | f⟩ := o
      · cases h
      · simp only at hcs
        cases hcs with
        | stop c t g h' hg hi hq =>
          cases h
          simp [recordBest, Opt.populateHistory, recordEval, hs]
        | moved c t g _ h' hg hns hm =>
          have hf := moveSwarm_frame cfg (env i) iters i (recordBest t g (recordEval c s))
          rw [hm] at hf
          simp only at hf
          obtain ⟨-, -, -, -, -, -, -, -, -, h4, -, h6, -⟩ := hf
          refine ih _ _ _ _ ?_ h
          rw [h4, h6]
          simp [recordBest, Opt.populateHistory, recordEval, hs]
  have hc := optimize_cases cfg ev iters nproc env s
  rw [h] at hc
  generalize (optimize cfg ev iters nproc env s).1 = s' at hc ⊢
  cases hc with
  | done s1 r hp h hf => exact hloop _ _ _ (startState cfg nproc s) s1 hs h

/-- C28: after any sequence of calls that return, the matrices passed to the evaluations since the
last reset are, in order, the entries of `pos_history`. -/
theorem C28_aligned (cfg : Config n d K) (r1 r2 : InitDraw n d K) (s0 : Opt n d K)
    (hc : construct cfg r1 r2 = .ok s0) (ops : List (Op n d K)) (hops : AllReturn cfg s0 ops) :
    (runOps cfg s0 ops).evals.map Prod.fst = (runOps cfg s0 ops).posHistory := by
  obtain ⟨sw, -, rfl⟩ := construct_ok cfg r1 r2 s0 hc
  clear hc
  have h0 : (({ swarm := sw } : Opt n d K).evals.map Prod.fst) =
    ({ swarm := sw } : Opt n d K).posHistory := rfl
  generalize ({ swarm := sw } : Opt n d K) = s at h0 hops
  induction ops generalizing s with
  | nil => exact h0
  | cons op ops ih =>
    obtain ⟨h1, h2⟩ := hops
    refine ih (stepOp cfg s op) ?_ h2
    cases op with
    | optimize ev iters nproc env =>
      obtain ⟨v, hv⟩ := h1
      exact aligned_optimize cfg ev iters nproc env s v hv h0
    | reset r =>
      simp only at h1
      obtain ⟨sw', -, h3⟩ := reset_ok cfg r s (reset cfg r s).1 (Prod.ext rfl h1)
      simp only [stepOp, h3, List.map_nil]

/-- Non-vacuity of C28 and C59: two returning calls with 2 and 3 iterations give 5 entries. -/
example : (match construct (Ex.gcfg 2 1) (Ex.init 2 1) (Ex.init 2 1) with
    | .ok s => match optimize (Ex.gcfg 2 1) (Ex.sphere 2 1) 2 none (fun _ => Ex.draw 2 1) s with
      | (s1, .ok _) => match optimize (Ex.gcfg 2 1) (Ex.sphere 2 1) 3 none
          (fun _ => Ex.draw 2 1) s1 with
        | (s2, .ok _) => decide (s2.posHistory.length = 5 ∧ s2.evals.map Prod.fst = s2.posHistory)
        | _ => false
      | _ => false
    | _ => false) = true := by decide +kernel

/-! ## C12 for runs -/

/-- The optimizer uses a static ring in which everyone has one neighbour: static LocalBestPSO with
`k = 1`, GeneralOptimizerPSO with a static Ring and `k = 1`, or with VonNeumann and `r = 0`. -/
def OneNeighbour (cfg : Config n d K) : Prop :=
  match cfg.kind with
  | .localBest true => cfg.args.k = some 1
  | .general (.ring true) => cfg.args.k = some 1
  | .general .vonNeumann => cfg.args.r = some 0
  | _ => False

/-- What the topology object says about the number of history entries. -/
def Counted (s : Opt n d K) : Prop :=
  (s.top.neighbor = none ∧ s.top.ndim = 0 ∧ s.costHistory = []) ∨
    (s.top.neighbor ≠ none ∧ s.top.ndim ≤ 32 ∧ s.costHistory.length + 1 ≤ s.top.ndim)

theorem oneNeighbour_call (cfg : Config n d K) (h1 : OneNeighbour cfg) (o : Oracle n d K)
    (t : TopState n) (s : Swarm n d K) :
    (callGbest cfg o t s).1 = t ∧ (∃ e, (callGbest cfg o t s).2 = .error e) ∨
    ((t.neighbor = none ∧ (callGbest cfg o t s).1.neighbor ≠ none ∧
        (callGbest cfg o t s).1.ndim = 2) ∨
      (t.neighbor ≠ none ∧ (callGbest cfg o t s).1.neighbor ≠ none ∧ t.ndim + 1 ≤ 32 ∧
        (callGbest cfg o t s).1.ndim = t.ndim + 1)) := by
  have hring : ∀ p, (ringGbest true 1 p o t s).1 = t ∧
        (∃ e, (ringGbest true 1 p o t s).2 = .error e) ∨
      ((t.neighbor = none ∧ (ringGbest true 1 p o t s).1.neighbor ≠ none ∧
        (ringGbest true 1 p o t s).1.ndim = 2) ∨
      (t.neighbor ≠ none ∧ (ringGbest true 1 p o t s).1.neighbor ≠ none ∧ t.ndim + 1 ≤ 32 ∧
        (ringGbest true 1 p o t s).1.ndim = t.ndim + 1)) := by
    intro p
    unfold ringGbest
    cases ht : t.neighbor with
    | none =>
      simp only [Option.isNone_none, Bool.true_and, Bool.true_or, if_true, ringQuery]
      by_cases hp : p = 0
      · left; simp [hp]
      · right; left
        simp [hp, npMaxDims]
    | some nbr =>
      simp only [Option.isNone_some, Bool.and_false, Bool.not_true, Bool.or_false,
        Bool.false_eq_true, if_false, if_true]
      by_cases hn : t.ndim + 1 > npMaxDims
      · left; simp [hn]
      · right; right
        simp only [hn, if_false, ht]
        unfold npMaxDims at hn
        refine ⟨by simp, by simp, by omega, trivial⟩
  unfold OneNeighbour at h1
  unfold callGbest
  split at h1
  · next hk =>
    rw [hk]
    simp only [computeGbest, h1]
    cases cfg.args.p with
    | none => left; exact ⟨rfl, _, rfl⟩
    | some p => exact hring p
  · next hk =>
    rw [hk]
    simp only [computeGbest, h1]
    cases cfg.args.p with
    | none => left; exact ⟨rfl, _, rfl⟩
    | some p => exact hring p
  · next hk =>
    rw [hk]
    have h0 : delannoy d 0 = 1 := by cases d <;> simp [delannoy]
    simp only [computeGbest, h1]
    cases cfg.args.p with
    | none => left; exact ⟨rfl, _, rfl⟩
    | some p => simp only [h0]; exact hring p
  · exact h1.elim

theorem counted_iterate (cfg : Config n d K) (h1 : OneNeighbour cfg)
    (ev : Mat n d K → Except Err (Costs n K)) (r : Draw n d K) (iters i : Nat) (q : List Bool)
    (s : Opt n d K) (hs : Counted s) : Counted (iterate cfg ev r iters i q s).1 := by
  have hbest : ∀ (c : Costs n K) t g, callGbest cfg r.oracle (recordEval c s).top
      (recordEval c s).swarm = (t, .ok g) → Counted (recordBest t g (recordEval c s)) := by
    intro c t g hg
    have h := oneNeighbour_call cfg h1 r.oracle (recordEval c s).top (recordEval c s).swarm
    rw [hg] at h
    simp only at h
    right
    have hch : (recordBest t g (recordEval c s)).costHistory.length = s.costHistory.length + 1 := by
      simp [recordBest, Opt.populateHistory, recordEval]
    have htop : (recordBest t g (recordEval c s)).top = t := rfl
    rw [hch, htop]
    rcases h with ⟨-, e, he⟩ | ⟨h1, h2, h3⟩ | ⟨h1, h2, h3, h4⟩
    · cases he
    · rcases hs with ⟨-, -, hs⟩ | ⟨hs, -⟩
      · rw [hs, h3]; exact ⟨h2, by decide, by simp⟩
      · exact absurd h1 hs
    · rcases hs with ⟨hs, -⟩ | ⟨-, -, hs⟩
      · exact absurd hs h1
      · have : (recordEval c s).top = s.top := rfl
        rw [this] at h3 h4
        exact ⟨h2, by omega, by omega⟩
  have hc := iterate_cases cfg ev r iters i q s
  generalize (iterate cfg ev r iters i q s).1 = s' at hc ⊢
  generalize (iterate cfg ev r iters i q s).2 = o at hc
  cases hc with
  | evalError e h => exact hs
  | gbestError c t e h hg =>
    have h := oneNeighbour_call cfg h1 r.oracle (recordEval c s).top (recordEval c s).swarm
    rw [hg] at h
    simp only at h
    have htop : (recordEval c s).top = s.top := rfl
    rw [htop] at h
    rcases h with ⟨h, -⟩ | ⟨h1, h2, h3⟩ | ⟨h1, h2, h3, h4⟩
    · rw [h]; exact hs
    · right
      rcases hs with ⟨-, -, hs⟩ | ⟨hs, -⟩
      · refine ⟨h2, ?_, ?_⟩
        · show t.ndim ≤ 32; omega
        · show s.costHistory.length + 1 ≤ t.ndim; rw [hs, h3]; simp
      · exact absurd h1 hs
    · right
      rcases hs with ⟨hs, -⟩ | ⟨-, -, hs⟩
      · exact absurd hs h1
      · refine ⟨h2, ?_, ?_⟩
        · show t.ndim ≤ 32; omega
        · show s.costHistory.length + 1 ≤ t.ndim; omega
  | stop c t g h hg hi hq => exact hbest c t g hg
  | moveError c t g _ e h hg hns hm =>
    have hf := moveSwarm_frame cfg r iters i (recordBest t g (recordEval c s))
    rw [hm] at hf
    simp only at hf
    obtain ⟨-, -, -, -, -, h6, h7, -⟩ := hf
    unfold Counted
    rw [h6, h7]
    exact hbest c t g hg
  | moved c t g _ h hg hns hm =>
    have hf := moveSwarm_frame cfg r iters i (recordBest t g (recordEval c s))
    rw [hm] at hf
    simp only at hf
    obtain ⟨-, -, -, -, -, h6, h7, -⟩ := hf
    unfold Counted
    rw [h6, h7]
    exact hbest c t g hg

theorem counted_reachable (cfg : Config n d K) (h1 : OneNeighbour cfg) (s : Opt n d K)
    (hr : Reachable cfg s) : Counted s := by
  obtain ⟨r1, r2, s0, ops, hc, rfl⟩ := hr
  obtain ⟨sw, hsw, rfl⟩ := construct_ok cfg r1 r2 s0 hc
  refine runOps_inv cfg Counted (fun _ => True) (fun s op _ hs => ?_) ops (fun _ _ => trivial) _
    (Or.inl ⟨rfl, rfl, rfl⟩)
  cases op with
  | optimize ev iters nproc env =>
    exact optimize_inv cfg ev iters nproc env Counted (fun s _ _ _ h => h) (fun s h => h)
      (fun i q s hs => counted_iterate cfg h1 _ _ _ _ _ s hs) s hs
  | reset r =>
    have hcl : ∀ sw' E, Counted
        { s with
          costHistory := [], meanPbestHistory := [], meanNeighborHistory := [], posHistory := []
          velocityHistory := [], swarm := sw', evals := E } := by
      intro sw' E
      rcases hs with ⟨a, b, c⟩ | ⟨a, b, c⟩
      · exact Or.inl ⟨a, b, rfl⟩
      · refine Or.inr ⟨a, b, ?_⟩
        show 0 + 1 ≤ s.top.ndim
        omega
    simp only [stepOp, reset]
    split
    · exact hcl s.swarm s.evals
    · exact hcl _ []

/-- C12: an optimizer with a static one-neighbour ring never has more than 31 history entries,
whatever calls have been made. -/
theorem C12_history_bound (cfg : Config n d K) (h1 : OneNeighbour cfg) (s : Opt n d K)
    (hr : Reachable cfg s) : s.costHistory.length ≤ 31 := by
  rcases counted_reachable cfg h1 s hr with ⟨-, -, h⟩ | ⟨-, h2, h3⟩
  · rw [h]; simp
  · omega

/-- C12: hence `optimize(iters >= 32)` never returns if `ftol` is not positive (as by default). -/
theorem C12_never_returns (cfg : Config n d K) (h1 : OneNeighbour cfg)
    (hf : ∀ a, cfg.ftol = XR.fin a → a ≤ 0) (hp : cfg.ftol ≠ XR.pinf) (s : Opt n d K)
    (hr : Reachable cfg s) (ev : Nat → Mat n d K → Except Err (Costs n K)) (iters : Nat)
    (hit : 32 ≤ iters) (nproc : Option Nat) (env : Nat → Draw n d K) :
    ∀ v, (optimize cfg ev iters nproc env s).2 ≠ .ok v := by
  intro v hv
  have hlen := C27_no_stop cfg (reachable_window hr) hf hp ev iters nproc env s
    (optimize cfg ev iters nproc env s).1 v (Prod.ext rfl hv)
  have hr' : Reachable cfg (optimize cfg ev iters nproc env s).1 := by
    obtain ⟨r1, r2, s0, ops, hc, rfl⟩ := hr
    exact ⟨r1, r2, s0, ops ++ [.optimize ev iters nproc env], hc, by simp [runOps, stepOp]⟩
  have := C12_history_bound cfg h1 _ hr'
  omega

/-- Non-vacuity of C12: such an optimizer exists and runs 31 iterations; asked for 32 it raises
`IndexError`. -/
example : OneNeighbour (Ex.rcfg 2 1 true 1) ∧
    (match construct (Ex.rcfg 2 1 true 1) (Ex.init 2 1) (Ex.init 2 1) with
    | .ok s => (match optimize (Ex.rcfg 2 1 true 1) (fun _ _ => .ok fun _ => .fin 1) 31 none
        (fun _ => Ex.draw 2 1) s with
        | (s1, .ok _) => decide (s1.costHistory.length = 31)
        | _ => false) && 
      (match optimize (Ex.rcfg 2 1 true 1) (fun _ _ => .ok fun _ => .fin 1) 32 none
        (fun _ => Ex.draw 2 1) s with
        | (_, .error e) => decide (e = .indexError)
        | _ => false)
    | _ => false) = true := ⟨rfl, by decide +kernel⟩

end PySwarms
