import Verif.Props.Stopping
import Verif.Lemmas.Rounded
import Verif.Props.ReflectiveFar
import Verif.Props.SchedFloat

/-!
# Early stopping when every number is rounded (C109)

The stop test is computed in floating point: the difference of two best costs, `1 + |best|` and the
product with `ftol` are all rounded.
-/

set_option linter.unusedSectionVars false

namespace PySwarms

variable {n d : Nat} {K : Type} [Field K] [LinearOrder K] [IsStrictOrderedRing K] [Transc K]
  [FloorRing K]

/-! ## Specification -/

/-- The change from `prev` to `now` is small as a machine that rounds with `fl` sees it:
`fl |now - prev| < fl (ftol * fl (1 + |prev|))`. -/
def SmallRounded (fl : K → K) (ftol prev now : XR K) : Prop :=
  XR.lt (XR.abs (roundX fl (XR.sub now prev)))
    (roundX fl (XR.mul ftol (roundX fl (XR.add (XR.fin 1) (XR.abs prev))))) = true

/-- After entry `i` of the list of best costs `H` the criterion is met: there have been more than `w`
entries, and the last `w` changes (up to the one leading to entry `i`) were small. -/
def StopsWhen (small : XR K → XR K → Prop) (w : Nat) (H : List (XR K)) (i : Nat) : Prop :=
  w ≤ i ∧ ∀ t (h : t + 1 < H.length), i < t + 1 + w → t + 1 ≤ i → small H[t] H[t + 1]

/-! ## The loop -/

/-- The stop test values along a list of best costs, the best before being `b`. -/
def deltasR (fl : K → K) (ftol : XR K) : XR K → List (XR K) → List Bool
  | _, [] => []
  | b, x :: H => ftolDeltaR fl ftol x b :: deltasR fl ftol x H

theorem deltasR_length (fl : K → K) (ftol b : XR K) (H : List (XR K)) :
    (deltasR fl ftol b H).length = H.length := by
  induction H generalizing b with
  | nil => rfl
  | cons x H ih => simp [deltasR, ih]

theorem deltasR_append (fl : K → K) (ftol b x : XR K) (H : List (XR K)) :
    deltasR fl ftol b (H ++ [x]) = deltasR fl ftol b H ++ [ftolDeltaR fl ftol x (H.getLastD b)] := by
  induction H generalizing b with
  | nil => rfl
  | cons y H ih =>
    simp only [List.cons_append, deltasR, ih]
    congr 4
    cases H <;> rfl

theorem deltasR_getElem (fl : K → K) (ftol b : XR K) (H : List (XR K)) (t : Nat)
    (h : t + 1 < H.length) :
    (deltasR fl ftol b H)[t + 1]'(by rw [deltasR_length]; exact h) =
      ftolDeltaR fl ftol H[t + 1] H[t] := by
  induction H generalizing b t with
  | nil => simp at h
  | cons x H ih =>
    cases H with
    | nil => simp at h
    | cons y H =>
      cases t with
      | zero => rfl
      | succ t =>
        have := ih x t (by simpa using h)
        simpa [deltasR] using this

theorem stopsR_iff (fl : K → K) (w : Nat) (ftol b : XR K) (H : List (XR K)) (i : Nat)
    (hi : i + 1 = H.length) :
    StopsWhen (SmallRounded fl ftol) w H i ↔
      (w ≤ i ∧
        ((deltasR fl ftol b H).drop ((deltasR fl ftol b H).length - w)).all id = true) := by
  unfold StopsWhen
  apply and_congr_right
  intro hwi
  rw [List.all_eq_true]
  constructor
  · intro h x hx
    obtain ⟨k, hk, rfl⟩ := List.getElem_of_mem hx
    rw [List.length_drop] at hk
    rw [deltasR_length] at hk
    rw [List.getElem_drop]
    have key : ∀ a, (ha : a = H.length - w + k) → (hl : a < (deltasR fl ftol b H).length) →
        (deltasR fl ftol b H)[a] = true := by
      intro a ha hl
      obtain ⟨t, rfl⟩ : ∃ t, a = t + 1 := ⟨a - 1, by omega⟩
      rw [deltasR_length] at hl
      rw [deltasR_getElem fl ftol b H t hl]
      exact h t hl (by omega) (by omega)
    simp only [id_eq]
    apply key
    rw [deltasR_length]
  · intro h t ht h1 h2
    have hm : (deltasR fl ftol b H)[t + 1]'(by rw [deltasR_length]; exact ht) ∈
        (deltasR fl ftol b H).drop ((deltasR fl ftol b H).length - w) := by
      rw [List.mem_iff_getElem]
      refine ⟨t + 1 - (H.length - w), ?_, ?_⟩
      · rw [List.length_drop, deltasR_length]; omega
      · rw [List.getElem_drop]
        congr 1
        rw [deltasR_length]
        omega
    have := h _ hm
    rw [deltasR_getElem fl ftol b H t ht] at this
    exact this

/-- What one rounded iteration that does not raise has done. -/
theorem iterateR_ok (A : Arith n d K) (cfg : Config n d K)
    (ev : Mat n d K → Except Err (Costs n K)) (r : Draw n d K) (iters i : Nat) (q : List Bool)
    (s s' : Opt n d K) (f : Flow) (h : iterateR A cfg ev r iters i q s = (s', .ok f)) :
    ∃ x, s'.costHistory = s.costHistory ++ [x] ∧ s'.swarm.bestCostVal = x ∧
      (let q' := dequeAppend cfg.window q (ftolDeltaR A.fl cfg.ftol x s.swarm.bestCostVal)
       (f = .stop ∧ cfg.window ≤ i ∧ q'.all id = true) ∨
       (f = .continue q' ∧ ¬ (cfg.window ≤ i ∧ q'.all id = true))) := by
  unfold iterateR at h
  split at h
  · cases (Prod.mk.inj h).2
  · next c hc =>
    simp only [] at h
    split at h
    · cases (Prod.mk.inj h).2
    · next t g hg =>
      have hm := sameBests_move A cfg r iters i (recordBestR A t g (recordEval c s))
      refine ⟨g.2.getD XR.pinf, ?_⟩
      split at h
      · next hif =>
        have h1 := (Prod.mk.inj h).1
        have h2 := (Prod.mk.inj h).2
        subst h1
        cases h2
        rw [Bool.and_eq_true, decide_eq_true_eq, not_lt] at hif
        exact ⟨rfl, rfl, .inl ⟨rfl, hif.1, hif.2⟩⟩
      · next hif =>
        split at h
        · cases (Prod.mk.inj h).2
        · next s3 h3 =>
          have h1 := (Prod.mk.inj h).1
          have h2 := (Prod.mk.inj h).2
          subst h1
          cases h2
          rw [h3] at hm
          refine ⟨hm.costHistory, ?_, .inr ⟨rfl, ?_⟩⟩
          · unfold Swarm.bestCostVal; rw [hm.bestCost]; rfl
          · rw [Bool.and_eq_true, decide_eq_true_eq, not_lt] at hif
            exact hif

theorem loopR_stopping (A : Arith n d K) (cfg : Config n d K)
    (ev : Nat → Mat n d K → Except Err (Costs n K))
    (env : Nat → Draw n d K) (iters : Nat) (base : List (XR K)) (b : XR K) (m : Nat) :
    ∀ (i : Nat) (q : List Bool) (s s' : Opt n d K) (H0 : List (XR K)),
      s.costHistory = base ++ H0 → H0.length = i → s.swarm.bestCostVal = H0.getLastD b →
      q = (deltasR A.fl cfg.ftol b H0).drop ((deltasR A.fl cfg.ftol b H0).length - cfg.window) →
      loopR A cfg ev env iters m i q s = (s', .ok ()) →
      ∃ H1, s'.costHistory = base ++ (H0 ++ H1) ∧ H1.length ≤ m ∧
        (∀ j, i ≤ j → j + 1 < (H0 ++ H1).length →
          ¬ StopsWhen (SmallRounded A.fl cfg.ftol) cfg.window ((H0 ++ H1).take (j + 1)) j) ∧
        (H1.length < m → H1 ≠ [] ∧
          StopsWhen (SmallRounded A.fl cfg.ftol) cfg.window (H0 ++ H1)
            ((H0 ++ H1).length - 1)) := by
  induction m with
  | zero =>
    intro i q s s' H0 h1 h2 h3 h4 h
    rw [loopR] at h
    cases h
    exact ⟨[], by simpa using h1, by simp, fun j hj hl => by simp at hl; omega, by simp⟩
  | succ m ih =>
    intro i q s s' H0 h1 h2 h3 h4 h
    have hok := iterateR_ok A cfg (ev i) (env i) iters i q s
    rw [loopR] at h
    generalize iterateR A cfg (ev i) (env i) iters i q s = o at h hok
    have hq : ∀ x, dequeAppend cfg.window q (ftolDeltaR A.fl cfg.ftol x s.swarm.bestCostVal) =
        (deltasR A.fl cfg.ftol b (H0 ++ [x])).drop
          ((deltasR A.fl cfg.ftol b (H0 ++ [x])).length - cfg.window) := by
      intro x
      rw [h4, dequeAppend_drop, deltasR_append, h3]
    obtain ⟨s1, e | f⟩ := o
    · cases h
    · obtain ⟨x, hx1, hx2, hx3⟩ := hok s1 f rfl
      rcases hx3 with ⟨rfl, hi, hall⟩ | ⟨rfl, hns⟩
      · cases h
        refine ⟨[x], ?_, by simp, ?_, fun _ => ⟨by simp, ?_⟩⟩
        · rw [hx1, h1, List.append_assoc]
        · intro j hj hl
          simp at hl
          omega
        · have hl : (H0 ++ [x]).length - 1 = i := by simp [h2]
          rw [hl, stopsR_iff _ _ _ b _ _ (by simp [h2])]
          refine ⟨hi, ?_⟩
          rw [hq] at hall
          exact hall
      · obtain ⟨H1, e1, e2, e3, e4⟩ := ih (i + 1) _ s1 s' (H0 ++ [x])
          (by rw [hx1, h1, List.append_assoc])
          (by simp [h2]) (by rw [hx2]; simp) (hq _) h
        refine ⟨x :: H1, ?_, by simp; omega, ?_, ?_⟩
        · rw [e1, List.append_assoc]; rfl
        · intro j hj hl
          rcases Nat.eq_or_lt_of_le hj with rfl | hlt
          · have htk : (H0 ++ x :: H1).take (i + 1) = H0 ++ [x] := by
              rw [← h2, List.take_append]
              simp
            rw [htk, stopsR_iff _ _ _ b _ _ (by simp [h2]), ← hq]
            exact hns
          · have := e3 j hlt (by simpa using hl)
            rwa [List.append_assoc] at this
        · intro hlt
          have := (e4 (by simpa using hlt)).2
          rw [List.append_assoc] at this
          exact ⟨by simp, this⟩

/-! ## C109 -/

/-- C109: however numbers are rounded, a call that returns has appended a list `H` of at most `iters`
best costs; it did not stop before the rounded criterion was met and, if it performed fewer than
`iters` iterations, the rounded criterion was met after its last entry. -/
theorem C109_exact (A : Arith n d K) (cfg : Config n d K)
    (ev : Nat → Mat n d K → Except Err (Costs n K))
    (iters : Nat) (nproc : Option Nat) (env : Nat → Draw n d K) (s s' : Opt n d K)
    (v : XR K × Vec d K) (h : optimizeR A cfg ev iters nproc env s = (s', .ok v)) :
    ∃ H, s'.costHistory = s.costHistory ++ H ∧ min iters (cfg.window + 1) ≤ H.length ∧
      H.length ≤ iters ∧
      (∀ i, i + 1 < H.length →
        ¬ StopsWhen (SmallRounded A.fl cfg.ftol) cfg.window (H.take (i + 1)) i) ∧
      (H.length < iters → H ≠ [] ∧
        StopsWhen (SmallRounded A.fl cfg.ftol) cfg.window H (H.length - 1)) := by
  obtain ⟨-, s1, hl, rfl, -, -⟩ := optimizeR_ok A cfg ev iters nproc env s s' v.1 v.2 h
  obtain ⟨H, h1, h2, h3, h4⟩ := loopR_stopping A cfg ev env iters s.costHistory
    s.swarm.bestCostVal iters 0 [] (startState cfg nproc s) s1 [] (by simp [startState, prepare])
    rfl rfl (by simp [deltasR]) hl
  refine ⟨H, by simpa using h1, ?_, h2,
    fun i hi => by simpa using h3 i (by omega) (by simpa using hi), by simpa using h4⟩
  by_cases hlt : H.length < iters
  · obtain ⟨hne, hs, -⟩ := h4 hlt
    have : 0 < H.length := List.length_pos_iff.2 hne
    simp at hs
    omega
  · omega

/-- A machine value of `|x|` is never below zero. -/
theorem abs_not_neg (z : XR K) : XR.lt (XR.abs z) (XR.fin 0) = false := by
  cases z with
  | nan => rfl
  | ninf => rfl
  | pinf => rfl
  | fin a =>
    by_cases h : a < 0
    · simp [XR.abs, h, XR.lt]; exact le_of_lt h
    · simpa [XR.abs, h, XR.lt] using h

theorem one_add_abs (x : XR K) : XR.add (XR.fin 1) (XR.abs x) = XR.nan ∨
    XR.add (XR.fin 1) (XR.abs x) = XR.pinf ∨
    ∃ a : K, 1 ≤ a ∧ XR.add (XR.fin 1) (XR.abs x) = XR.fin a := by
  cases x with
  | nan => left; rfl
  | ninf => right; left; rfl
  | pinf => right; left; rfl
  | fin a =>
    right; right
    by_cases h : a < 0
    · exact ⟨1 + -a, by linarith, by simp [XR.abs, h, XR.add]⟩
    · exact ⟨1 + a, by linarith, by simp [XR.abs, h, XR.add]⟩

theorem not_smallR {fl : K → K} (hm : Monotone fl) (h0 : fl 0 = 0) {ftol : XR K}
    (hf : ∀ a, ftol = XR.fin a → a ≤ 0) (hp : ftol ≠ XR.pinf) (x y : XR K) :
    ¬ SmallRounded fl ftol x y := by
  have key : ∀ r : XR K, (r = .nan ∨ r = .ninf ∨ ∃ a, a ≤ 0 ∧ r = .fin a) → ∀ z : XR K,
      XR.lt (XR.abs z) r ≠ true := by
    intro r hr z hz
    have h3 := abs_not_neg z
    rcases hr with rfl | rfl | ⟨b, hb, rfl⟩
    · generalize XR.abs z = a at hz; cases a <;> cases hz
    · generalize XR.abs z = a at hz; cases a <;> cases hz
    · generalize XR.abs z = a at hz h3
      cases a with
      | fin c =>
        simp only [XR.lt, decide_eq_true_eq, decide_eq_false_iff_not] at hz h3
        exact h3 (lt_of_lt_of_le hz hb)
      | nan => cases hz
      | pinf => cases hz
      | ninf => cases h3
  unfold SmallRounded
  apply key
  rcases one_add_abs x with h | h | ⟨a, ha, h⟩ <;> rw [h]
  · left; cases ftol <;> rfl
  · cases ftol with
    | nan => left; rfl
    | ninf => right; left; rfl
    | pinf => exact absurd rfl hp
    | fin b =>
      have e : XR.mul (XR.fin b) XR.pinf = if b < 0 then XR.ninf else XR.nan := by
        simp [XR.mul, XR.infTimes, not_lt.2 (hf b rfl)]
      have e' : roundX fl (XR.mul (XR.fin b) (roundX fl XR.pinf)) =
          roundX fl (XR.mul (XR.fin b) XR.pinf) := rfl
      rw [e', e]
      split
      · right; left; rfl
      · left; rfl
  · have hpos : 0 ≤ fl a := by
      rw [← h0]; exact hm (by linarith)
    cases ftol with
    | nan => left; rfl
    | ninf =>
      have e' : roundX fl (XR.mul XR.ninf (roundX fl (XR.fin a))) =
          roundX fl (XR.mul XR.ninf (XR.fin (fl a))) := rfl
      have e : XR.mul XR.ninf (XR.fin (fl a)) = if 0 < fl a then XR.ninf else XR.nan := by
        simp [XR.mul, XR.infTimes, not_lt.2 hpos]
      rw [e', e]
      split
      · right; left; rfl
      · left; rfl
    | pinf => exact absurd rfl hp
    | fin b =>
      right; right
      refine ⟨fl (b * fl a), ?_, rfl⟩
      rw [← h0]
      exact hm (mul_nonpos_of_nonpos_of_nonneg (hf b rfl) hpos)

/-- C109: if `ftol` is not positive (the default is `-inf`), a call that returns has recorded exactly
`iters` entries, however numbers are rounded (rounding is monotone and keeps 0). -/
theorem C109_no_stop (A : Arith n d K) (hm : Monotone A.fl) (h0 : A.fl 0 = 0) (cfg : Config n d K)
    (hw : 0 < cfg.window) (hf : ∀ a, cfg.ftol = XR.fin a → a ≤ 0) (hp : cfg.ftol ≠ XR.pinf)
    (ev : Nat → Mat n d K → Except Err (Costs n K))
    (iters : Nat) (nproc : Option Nat) (env : Nat → Draw n d K) (s s' : Opt n d K)
    (v : XR K × Vec d K) (h : optimizeR A cfg ev iters nproc env s = (s', .ok v)) :
    s'.costHistory.length = s.costHistory.length + iters := by
  obtain ⟨H, h1, -, h2, h3, h4⟩ := C109_exact A cfg ev iters nproc env s s' v h
  rw [h1, List.length_append]
  by_cases hlt : H.length < iters
  · obtain ⟨hne, hs, hall⟩ := h4 hlt
    have : 0 < H.length := List.length_pos_iff.2 hne
    exact absurd (hall (H.length - 2) (by omega) (by omega) (by omega)) (not_smallR hm h0 hf hp _ _)
  · omega

/-- A change is small only between two finite costs. -/
theorem smallR_finite {fl : K → K} {ftol x y : XR K} (h : SmallRounded fl ftol x y) :
    ∃ a b, x = .fin a ∧ y = .fin b := by
  unfold SmallRounded at h
  cases x with
  | fin a =>
    cases y with
    | fin b => exact ⟨a, b, rfl, rfl⟩
    | nan => simp [XR.sub, XR.neg, XR.add, XR.abs, roundX, XR.lt] at h
    | pinf =>
      generalize roundX fl (XR.mul ftol (roundX fl (XR.add (XR.fin 1) (XR.abs (XR.fin a))))) = r at h
      cases r <;> simp [XR.sub, XR.neg, XR.add, XR.abs, roundX, XR.lt] at h
    | ninf =>
      generalize roundX fl (XR.mul ftol (roundX fl (XR.add (XR.fin 1) (XR.abs (XR.fin a))))) = r at h
      cases r <;> simp [XR.sub, XR.neg, XR.add, XR.abs, roundX, XR.lt] at h
  | nan =>
    generalize roundX fl (XR.mul ftol (roundX fl (XR.add (XR.fin 1) (XR.abs XR.nan)))) = r at h
    cases y <;> cases r <;> simp [XR.sub, XR.neg, XR.add, XR.abs, roundX, XR.lt] at h
  | pinf =>
    generalize roundX fl (XR.mul ftol (roundX fl (XR.add (XR.fin 1) (XR.abs XR.pinf)))) = r at h
    cases y <;> cases r <;> simp [XR.sub, XR.neg, XR.add, XR.abs, roundX, XR.lt] at h
  | ninf =>
    generalize roundX fl (XR.mul ftol (roundX fl (XR.add (XR.fin 1) (XR.abs XR.ninf)))) = r at h
    cases y <;> cases r <;> simp [XR.sub, XR.neg, XR.add, XR.abs, roundX, XR.lt] at h

/-- C109: whatever `ftol`, a call that stops early has ended with `ftol_iter + 1` finite best costs in
a row.  In particular a run whose best cost has reached `-inf` never stops early, although its best
cost does not change any more. -/
theorem C109_infinite (A : Arith n d K) (cfg : Config n d K) (hw : 0 < cfg.window)
    (ev : Nat → Mat n d K → Except Err (Costs n K))
    (iters : Nat) (nproc : Option Nat) (env : Nat → Draw n d K) (s s' : Opt n d K)
    (v : XR K × Vec d K) (h : optimizeR A cfg ev iters nproc env s = (s', .ok v)) (H : List (XR K))
    (hH : s'.costHistory = s.costHistory ++ H) (hlt : H.length < iters) :
    ∀ (t : Nat) (ht : t < H.length), H.length ≤ t + cfg.window + 1 → ∃ a, H[t] = XR.fin a := by
  obtain ⟨H', h1, -, h2, h3, h4⟩ := C109_exact A cfg ev iters nproc env s s' v h
  rw [hH] at h1
  obtain rfl := List.append_cancel_left h1
  obtain ⟨hne, hs, hall⟩ := h4 hlt
  intro t ht hge
  by_cases hlast : t + 1 < H.length
  · obtain ⟨a, b, ha, -⟩ := smallR_finite (hall t hlast (by omega) (by omega))
    exact ⟨a, ha⟩
  · obtain ⟨u, rfl⟩ : ∃ u, t = u + 1 := ⟨t - 1, by omega⟩
    obtain ⟨a, b, -, hb⟩ := smallR_finite (hall u ht (by omega) (by omega))
    exact ⟨b, hb⟩

/-! ## Doubles -/

theorem xabs_fin (x : K) : XR.abs (XR.fin x) = XR.fin |x| := by
  by_cases h : x < 0
  · simp [XR.abs, h, abs_of_neg h]
  · simp [XR.abs, h, abs_of_nonneg (not_lt.1 h)]

/-- The test on doubles, spelt out. -/
theorem small64_iff (a x y : ℚ) : SmallRounded f64 (.fin a) (.fin x) (.fin y) ↔
    |f64 (y - x)| < f64 (a * f64 (1 + |x|)) := by
  unfold SmallRounded
  have h1 : XR.sub (XR.fin y) (XR.fin x) = XR.fin (y - x) := by
    simp [XR.sub, XR.neg, XR.add, sub_eq_add_neg]
  rw [h1, xabs_fin x]
  show XR.lt (XR.abs (XR.fin (f64 (y - x)))) (XR.fin (f64 (a * f64 (1 + |x|)))) = true ↔ _
  rw [xabs_fin]
  simp [XR.lt]

/-- C109: with a positive `ftol` an unchanged finite best cost counts as a small change: no rounding
or underflow makes the tolerance vanish. -/
theorem C109_unchanged {a : ℚ} (ha : 0 < a) (hd : IsDouble a) (x : ℚ) :
    SmallRounded f64 (.fin a) (.fin x) (.fin x) := by
  rw [small64_iff, sub_self, f64_zero, abs_zero]
  have h1 : 1 ≤ f64 (1 + |x|) := by
    calc (1 : ℚ) = f64 1 := f64_one.symm
      _ ≤ _ := f64_mono (by linarith [abs_nonneg x])
  have h2 : a ≤ a * f64 (1 + |x|) := by nlinarith
  have h3 := f64_mono h2
  rw [f64_of_isDouble hd] at h3
  linarith

/-- C109: with a positive `ftol`, a call whose best cost is finite and never changes records exactly
`min(iters, ftol_iter + 1)` entries, in floating point too. -/
theorem C109_constant (A : Arith n d ℚ) [Transc ℚ] (hA : A.fl = f64) (cfg : Config n d ℚ) (a y : ℚ)
    (ha : 0 < a) (hd : IsDouble a)
    (hf : cfg.ftol = XR.fin a) (ev : Nat → Mat n d ℚ → Except Err (Costs n ℚ))
    (iters : Nat) (nproc : Option Nat) (env : Nat → Draw n d ℚ) (s s' : Opt n d ℚ)
    (v : XR ℚ × Vec d ℚ) (h : optimizeR A cfg ev iters nproc env s = (s', .ok v)) (H : List (XR ℚ))
    (hH : s'.costHistory = s.costHistory ++ H) (hc : ∀ x ∈ H, x = XR.fin y) :
    H.length = min iters (cfg.window + 1) := by
  obtain ⟨H', h1, h2', h2, h3, h4⟩ := C109_exact A cfg ev iters nproc env s s' v h
  rw [hH] at h1
  obtain rfl := List.append_cancel_left h1
  by_contra hne
  have hgt : cfg.window + 1 < H.length := by omega
  apply h3 cfg.window hgt
  refine ⟨le_refl _, fun t ht _ _ => ?_⟩
  rw [hc _ (List.mem_of_mem_take (List.getElem_mem (by omega : t < (H.take (cfg.window + 1)).length))),
    hc _ (List.mem_of_mem_take (List.getElem_mem ht)), hA, hf]
  exact C109_unchanged ha hd y

/-- C109: the rounded test agrees with the exact one up to a relative error of `2^-50` (and an absolute
one of four times the smallest double): what it calls small is at most that much above the tolerance,
and what is that much below it is called small. -/
theorem C109_close {a : ℚ} (ha : 0 < a) (x y : ℚ) :
    (SmallRounded f64 (.fin a) (.fin x) (.fin y) →
      |y - x| < a * (1 + |x|) * (1 + 1 / 2 ^ 50) + 2 ^ (-1072 : ℤ)) ∧
    (|y - x| + 2 ^ (-1072 : ℤ) ≤ a * (1 + |x|) * (1 - 1 / 2 ^ 50) →
      SmallRounded f64 (.fin a) (.fin x) (.fin y)) := by
  rw [small64_iff]
  have hx := abs_nonneg x
  have hP := f64_err (1 + |x|)
  have hD := f64_err (y - x)
  have hM := f64_err (a * f64 (1 + |x|))
  have hP0 : 1 ≤ f64 (1 + |x|) := by
    calc (1 : ℚ) = f64 1 := f64_one.symm
      _ ≤ _ := f64_mono (by linarith)
  have e1 : (2 : ℚ) ^ (-1072 : ℤ) = 4 * 2 ^ (-1074 : ℤ) := by
    rw [show (-1072 : ℤ) = 2 + -1074 by norm_num, zpow_add₀ (by norm_num)]; norm_num
  have e2 : (2 : ℚ) ^ (-1074 : ℤ) ≤ 1 / 2 ^ 60 := by
    have h := two_zpow_le (show (-1074 : ℤ) ≤ -60 by norm_num)
    have h' : (2 : ℚ) ^ (-60 : ℤ) = 1 / 2 ^ 60 := by norm_num
    rw [h'] at h
    exact h
  have e3 := two_zpow_pos (-1074)
  rw [e1]
  generalize (2 : ℚ) ^ (-1074 : ℤ) = m at *
  have hPa : |(1 + |x|)| = 1 + |x| := abs_of_nonneg (by linarith)
  rw [hPa] at hP
  generalize f64 (1 + |x|) = P at *
  have haP : |a * P| = a * P := abs_of_nonneg (by nlinarith)
  rw [haP] at hM
  have hDa : |(|f64 (y - x)| - |y - x|)| ≤ |y - x| / 2 ^ 53 + m / 2 :=
    le_trans (abs_abs_sub_abs_le_abs_sub _ _) hD
  have hy := abs_nonneg (y - x)
  generalize |f64 (y - x)| = D at *
  generalize |y - x| = z at *
  generalize f64 (a * P) = M at *
  rw [abs_le] at hP hM hDa
  obtain ⟨p1, p2⟩ := hP
  obtain ⟨m1, m2⟩ := hM
  obtain ⟨d1, d2⟩ := hDa
  generalize hq : 1 + |x| = q at *
  have hq1 : 1 ≤ q := by linarith
  -- the rounded factor `P` is within `2^-52` of `q`, relatively
  have hmq : m / 2 ≤ q / 2 ^ 60 := by
    have : (1 : ℚ) / 2 ^ 60 ≤ q / 2 ^ 60 := by
      rw [div_le_div_iff_of_pos_right (by norm_num)]; exact hq1
    linarith
  have hP1 : P ≤ q * (1 + 1 / 2 ^ 52) := by
    have : q * (1 + 1 / 2 ^ 52) = q + q / 2 ^ 53 + q / 2 ^ 53 := by ring
    have h' : q / 2 ^ 60 ≤ q / 2 ^ 53 := by
      apply div_le_div_of_nonneg_left (by linarith) (by norm_num) (by norm_num)
    linarith
  have hP2 : q * (1 - 1 / 2 ^ 52) ≤ P := by
    have : q * (1 - 1 / 2 ^ 52) = q - q / 2 ^ 53 - q / 2 ^ 53 := by ring
    have h' : q / 2 ^ 60 ≤ q / 2 ^ 53 := by
      apply div_le_div_of_nonneg_left (by linarith) (by norm_num) (by norm_num)
    linarith
  have hA1 := mul_le_mul_of_nonneg_left hP1 ha.le
  have hA2 := mul_le_mul_of_nonneg_left hP2 ha.le
  have hQ : 0 < a * q := by positivity
  have r1 : a * (q * (1 + 1 / 2 ^ 52)) = (a * q) * (1 + 1 / 2 ^ 52) := by ring
  have r2 : a * (q * (1 - 1 / 2 ^ 52)) = (a * q) * (1 - 1 / 2 ^ 52) := by ring
  rw [r1] at hA1
  rw [r2] at hA2
  generalize a * q = Q at *
  generalize a * P = R at *
  norm_num at *
  constructor
  · intro h
    linarith
  · intro h
    linarith

/-- A double of at least `2^r` is a multiple of `2^(r-53)`. -/
theorem double_multiple {x : ℚ} (hx : IsDouble x) {r : ℤ} (h : 2 ^ r ≤ |x|) :
    ∃ k : ℤ, x = k * 2 ^ (r - 53) := by
  obtain ⟨m, e, hm, -, rfl⟩ := hx
  have hpos := two_zpow_pos e
  rw [abs_mul, abs_of_pos hpos] at h
  have hm' : |(m : ℚ)| ≤ 2 ^ (53 : ℤ) := by
    have : ((|m| : ℤ) : ℚ) ≤ ((2 ^ 53 : ℤ) : ℚ) := by exact_mod_cast hm
    rw [Int.cast_abs] at this
    norm_num at this ⊢
    exact this
  have h2 : (2 : ℚ) ^ r ≤ 2 ^ (53 + e) := by
    rw [zpow_add₀ (by norm_num)]
    exact le_trans h (mul_le_mul_of_nonneg_right hm' hpos.le)
  have h3 : r ≤ 53 + e := (zpow_le_zpow_iff_right₀ (by norm_num)).1 h2
  obtain ⟨k, hk⟩ : ∃ k : ℕ, e = r - 53 + k := ⟨(e - (r - 53)).toNat, by omega⟩
  refine ⟨m * 2 ^ k, ?_⟩
  rw [hk, zpow_add₀ (by norm_num), zpow_natCast]
  push_cast
  ring

/-- Two different doubles, one of them not 0, are not closer than a part in `2^55`. -/
theorem double_apart {x y : ℚ} (hx : IsDouble x) (hy : IsDouble y) (h0 : x ≠ 0) (hne : y ≠ x) :
    |x| / 2 ^ 55 ≤ |y - x| := by
  have hx0 : 0 < |x| := abs_pos.2 h0
  by_cases hh : |y| < |x| / 2
  · have := abs_sub_abs_le_abs_sub x y
    rw [abs_sub_comm x y] at this
    have : |x| / 2 ^ 55 ≤ |x| / 2 := by
      apply div_le_div_of_nonneg_left hx0.le (by norm_num) (by norm_num)
    linarith
  · rw [not_lt] at hh
    have hl : (2 : ℚ) ^ (Int.log 2 |x|) ≤ |x| := by
      have := Int.zpow_log_le_self (b := 2) (by norm_num) hx0
      simpa using this
    have hu : |x| < 2 ^ (Int.log 2 |x| + 1) := by
      have := Int.lt_zpow_succ_log_self (b := 2) (by norm_num) |x|
      simpa using this
    generalize Int.log 2 |x| = r at hl hu
    have hr : (2 : ℚ) ^ (r - 1) = 2 ^ r / 2 := by
      rw [zpow_sub₀ (by norm_num)]; norm_num
    obtain ⟨k, hk⟩ := double_multiple hx (r := r - 1)
      (by rw [hr]; linarith [two_zpow_pos r])
    obtain ⟨l, hl'⟩ := double_multiple hy (r := r - 1) (by rw [hr]; linarith)
    have hpos := two_zpow_pos (r - 1 - 53)
    have e : (2 : ℚ) ^ (r + 1) = 2 ^ (r - 1 - 53) * 2 ^ 55 := by
      rw [show r + 1 = (r - 1 - 53) + 55 by ring, zpow_add₀ (by norm_num)]; norm_cast
    have hkl : l ≠ k := by
      rintro rfl
      exact hne (by rw [hl', hk])
    have h1 : (1 : ℚ) ≤ |(l : ℚ) - k| := by
      have : (1 : ℤ) ≤ |l - k| := Int.one_le_abs (sub_ne_zero.2 hkl)
      exact_mod_cast this
    have h2 : y - x = ((l : ℚ) - k) * 2 ^ (r - 1 - 53) := by rw [hl', hk]; ring
    rw [h2, abs_mul, abs_of_pos hpos]
    rw [e] at hu
    generalize (2 : ℚ) ^ (r - 1 - 53) = g at *
    rw [div_le_iff₀ (by norm_num)]
    nlinarith

/-- Scaling a double of at least 1 down by `2^k` with `k ≤ 60` is exact. -/
theorem f64_scale {x : ℚ} (hx : IsDouble x) (h1 : 1 ≤ |x|) (k : ℤ) (hk : 0 ≤ k) (hk' : k ≤ 60) :
    f64 (x / 2 ^ k) = x / 2 ^ k := by
  apply f64_of_isDouble
  obtain ⟨m, e, hm, he, rfl⟩ := hx
  refine ⟨m, e - k, hm, ?_, by rw [zpow_sub₀ (by norm_num)]; ring⟩
  have hpos := two_zpow_pos e
  rw [abs_mul, abs_of_pos hpos] at h1
  have hm' : |(m : ℚ)| ≤ 2 ^ (53 : ℤ) := by
    have : ((|m| : ℤ) : ℚ) ≤ ((2 ^ 53 : ℤ) : ℚ) := by exact_mod_cast hm
    rw [Int.cast_abs] at this
    norm_num at this ⊢
    exact this
  have h2 : (2 : ℚ) ^ (0 : ℤ) ≤ 2 ^ (53 + e) := by
    rw [zpow_add₀ (by norm_num), zpow_zero]
    exact le_trans h1 (mul_le_mul_of_nonneg_right hm' hpos.le)
  have h3 : 0 ≤ 53 + e := (zpow_le_zpow_iff_right₀ (by norm_num)).1 h2
  omega

/-- C109: a tolerance of at most `2^-56` (such as `1e-17`) is below what doubles can resolve: for best
costs of absolute value at least 1 it means "unchanged", so such a run stops exactly when its best
cost has not changed at all during `ftol_iter` iterations. -/
theorem C109_tiny {a : ℚ} (ha : 0 < a) (hd : IsDouble a) (hs : a ≤ 1 / 2 ^ 56) {x y : ℚ}
    (hx : IsDouble x) (hy : IsDouble y) (h1 : 1 ≤ |x|) :
    SmallRounded f64 (.fin a) (.fin x) (.fin y) ↔ y = x := by
  constructor
  · intro h
    by_contra hne
    rw [small64_iff] at h
    have hx0 : x ≠ 0 := by rintro rfl; norm_num at h1
    have hax : IsDouble |x| := by
      rcases abs_choice x with h | h <;> rw [h]
      · exact hx
      · obtain ⟨m, e, hm, he, rfl⟩ := hx
        exact ⟨-m, e, by rwa [abs_neg], he, by push_cast; ring⟩
    have haa : 1 ≤ |(|x|)| := by rwa [abs_abs]
    have h2 : |x| / 2 ^ 55 ≤ |f64 (y - x)| := by
      have e55 := f64_scale hax haa 55 (by norm_num) (by norm_num)
      have e55' : |x| / 2 ^ (55 : ℤ) = |x| / 2 ^ 55 := by norm_cast
      rw [e55'] at e55
      have hg := double_apart hx hy hx0 hne
      rcases abs_choice (y - x) with hc | hc <;> rw [hc] at hg
      · have := f64_mono hg
        rw [e55] at this
        exact le_trans this (le_abs_self _)
      · have := f64_mono hg
        rw [e55, f64_neg] at this
        exact le_trans this (neg_le_abs _)
    have h3 : f64 (1 + |x|) ≤ 2 * |x| := by
      have h := f64_mono (show 1 + |x| ≤ 2 * |x| by linarith)
      have e2 := f64_two |x|
      rw [f64_of_isDouble hax] at e2
      rwa [e2] at h
    have h4 : a * f64 (1 + |x|) ≤ |x| / 2 ^ 55 := by
      have h5 : 0 ≤ f64 (1 + |x|) := f64_nonneg (by linarith)
      calc a * f64 (1 + |x|) ≤ 1 / 2 ^ 56 * (2 * |x|) := mul_le_mul hs h3 h5 (by norm_num)
        _ = |x| / 2 ^ 55 := by ring
    have h6 := f64_mono h4
    have e55 := f64_scale hax haa 55 (by norm_num) (by norm_num)
    have e55' : |x| / 2 ^ (55 : ℤ) = |x| / 2 ^ 55 := by norm_cast
    rw [e55'] at e55
    rw [e55] at h6
    linarith
  · rintro rfl
    exact C109_unchanged ha hd _

/-! ## Examples -/

namespace Ex

/-- Non-vacuity of `C109_exact`, `C109_constant`: a run in binary64 with `ftol = 1/2^60`,
`ftol_iter = 1`, constant objective 7 and `iters = 5` records two entries. -/
example : (match optimizeR (fArith 2 1)
      { fcfg "periodic" with ftol := .fin (1 / 2 ^ 60), ftolIter := .int 1 }
      (fun _ _ => .ok fun _ => .fin 7) 5 none (fun _ => fdraw 2 1) fstart with
    | (s, .ok (c, _)) => decide (s.costHistory = [.fin 7, .fin 7] ∧ c = .fin 7)
    | _ => false) = true := by decide +kernel

/-- `C109_infinite`: with cost `-inf` throughout, the same run uses all its iterations. -/
example : (match optimizeR (fArith 2 1)
      { fcfg "periodic" with ftol := .fin (1 / 2 ^ 60), ftolIter := .int 1 }
      (fun _ _ => .ok fun _ => .ninf) 3 none (fun _ => fdraw 2 1) fstart with
    | (s, .ok (c, _)) => decide (s.costHistory = [.ninf, .ninf, .ninf] ∧ c = .ninf)
    | _ => false) = true := by decide +kernel

/-- `C109_no_stop`: rounding to doubles is monotone and keeps 0. -/
example : Monotone (fArith 2 1).fl ∧ (fArith 2 1).fl 0 = 0 := ⟨f64_mono, f64_zero⟩

/-- `C109_tiny`, `C109_close`: such a tolerance, and doubles it applies to. -/
example : IsDouble (1 / 2 ^ 60) ∧ (0 : ℚ) < 1 / 2 ^ 60 ∧ (1 : ℚ) / 2 ^ 60 ≤ 1 / 2 ^ 56 ∧ IsDouble 7 ∧
    (1 : ℚ) ≤ |7| ∧ |(8 : ℚ) - 7| + 2 ^ (-1072 : ℤ) ≤ 1 / 2 * (1 + |7|) * (1 - 1 / 2 ^ 50) := by
  refine ⟨⟨1, -60, by norm_num, by norm_num, by norm_num⟩, by norm_num, by norm_num,
    ⟨7, 0, by norm_num, by norm_num, by norm_num⟩, by norm_num, ?_⟩
  have h := two_zpow_le (show (-1072 : ℤ) ≤ 0 by norm_num)
  rw [zpow_zero] at h
  generalize (2 : ℚ) ^ (-1072 : ℤ) = m at *
  norm_num at *
  linarith

end Ex

end PySwarms
