import Verif.Props.Prefix
import Verif.Props.Best

/-!
# A stricter stopping rule stops no earlier (C136)
-/

set_option linter.unusedSectionVars false

namespace PySwarms

variable {n d : Nat} {K : Type} [Field K] [LinearOrder K] [IsStrictOrderedRing K] [Transc K]
  [FloorRing K]

/-! ## Specification -/

/-- The same optimizer with another stopping rule. -/
def Config.withStop (cfg : Config n d K) (ftol : XR K) (ftolIter : PyArg K) : Config n d K :=
  { cfg with ftol := ftol, ftolIter := ftolIter }

/-! ## Proofs -/

/-- The newest entries of a deque are small only if those of the other are. -/
def DequeLe (q q' : List Bool) : Prop :=
  q'.length ≤ q.length ∧ List.Forall₂ (fun a b : Bool => a = true → b = true)
    (q.reverse.take q'.length) q'.reverse

theorem dequeAppend_reverse (m : Nat) (q : List Bool) (x : Bool) :
    (dequeAppend m q x).reverse = (x :: q.reverse).take m := by
  unfold dequeAppend
  rw [List.reverse_drop, List.reverse_append]
  have hle : ∀ l : List Bool, l.take (l.length - (l.length - m)) = l.take m := by
    intro l
    by_cases h : m ≤ l.length
    · congr 1; omega
    · rw [List.take_of_length_le (by omega), List.take_of_length_le (by omega)]
  have := hle (x :: q.reverse)
  simpa using this

theorem dequeAppend_length (m : Nat) (q : List Bool) (x : Bool) :
    (dequeAppend m q x).length = min m (q.length + 1) := by
  rw [← List.length_reverse, dequeAppend_reverse, List.length_take]
  simp

theorem DequeLe.append {q q' : List Bool} (h : DequeLe q q') {m m' : Nat} (hm : m' ≤ m)
    {x x' : Bool} (hx : x = true → x' = true) :
    DequeLe (dequeAppend m q x) (dequeAppend m' q' x') := by
  obtain ⟨hl, hf⟩ := h
  refine ⟨by rw [dequeAppend_length, dequeAppend_length]; omega, ?_⟩
  rw [dequeAppend_reverse, dequeAppend_reverse, List.take_take, dequeAppend_length]
  have h1 : List.Forall₂ (fun a b : Bool => a = true → b = true)
      ((x :: q.reverse).take (q'.length + 1)) (x' :: q'.reverse) := by
    rw [List.take_succ_cons]
    exact .cons hx hf
  have h2 := List.forall₂_take m' h1
  rw [List.take_take] at h2
  have e : min (min m' (q'.length + 1)) m = min m' (q'.length + 1) := by omega
  rw [e]
  exact h2

theorem DequeLe.all {q q' : List Bool} (h : DequeLe q q') (ha : q.all id = true) :
    q'.all id = true := by
  have key : ∀ {a b : List Bool}, List.Forall₂ (fun a b : Bool => a = true → b = true) a b →
      (∀ x ∈ a, x = true) → ∀ x ∈ b, x = true := by
    intro a b hab
    induction hab with
    | nil => intro _ x hx; cases hx
    | cons hx _ ih =>
      intro hall y hy
      rcases List.mem_cons.1 hy with rfl | hy
      · exact hx (hall _ (List.mem_cons_self ..))
      · exact ih (fun z hz => hall z (List.mem_cons_of_mem _ hz)) y hy
  rw [List.all_eq_true] at ha ⊢
  intro x hx
  exact key h.2 (fun y hy => ha y (List.mem_reverse.1 (List.mem_of_mem_take hy))) x
    (List.mem_reverse.2 hx)

theorem ftolDelta_mono {f f' : XR K} (hn : f' ≠ .nan) (h : XR.lt f' f = false) (now yet : XR K)
    (hd : ftolDelta f now yet = true) : ftolDelta f' now yet = true := by
  unfold ftolDelta at hd ⊢
  generalize hz : XR.abs (XR.sub now yet) = z at hd ⊢
  have hzn : z ≠ .ninf := by
    rw [← hz]
    generalize XR.sub now yet = w
    cases w <;> simp only [XR.abs] <;> try exact fun h => by cases h
    split <;> exact fun h => by cases h
  have hy : XR.add (XR.fin (1 : K)) (XR.abs yet) = .nan ∨
      XR.add (XR.fin (1 : K)) (XR.abs yet) = .pinf ∨
      ∃ v : K, 0 < v ∧ XR.add (XR.fin (1 : K)) (XR.abs yet) = .fin v := by
    cases yet with
    | nan => exact .inl rfl
    | pinf => exact .inr (.inl rfl)
    | ninf => exact .inr (.inl rfl)
    | fin a =>
      refine .inr (.inr ⟨1 + |a|, by positivity, ?_⟩)
      simp only [XR.abs]
      split
      · next h => rw [abs_of_neg h]; rfl
      · next h => rw [abs_of_nonneg (not_lt.1 h)]; rfl
  rcases hy with hy | hy | ⟨v, hv, hy⟩ <;> rw [hy] at hd ⊢
  · cases f <;> cases z <;> simp [XR.mul, XR.lt] at hd
  · cases f <;> cases f' <;> cases z <;> simp_all [XR.mul, XR.lt, XR.infTimes]
    all_goals (try split_ifs at hd ⊢ <;> simp_all)
    all_goals (try (exfalso; linarith))
  · cases f <;> cases f' <;> cases z <;> simp_all [XR.mul, XR.lt, XR.infTimes]
    exact lt_of_lt_of_le hd (mul_le_mul_of_nonneg_right h hv.le)

theorem loop_stricter {cfg : Config n d K} {f' : XR K} {w' : PyArg K} (hn : f' ≠ .nan)
    (hf : XR.lt f' cfg.ftol = false) (hw : (cfg.withStop f' w').window ≤ cfg.window)
    (ev : Nat → Mat n d K → Except Err (Costs n K)) (env : Nat → Draw n d K) (iters m i : Nat)
    (q q' : List Bool) (hq : DequeLe q q') (s : Opt n d K) :
    loop (cfg.withStop f' w') ev env iters m i q' s = loop cfg ev env iters m i q s ∨
    ((loop (cfg.withStop f' w') ev env iters m i q' s).2 = .ok () ∧
      RecordsPrefix (loop (cfg.withStop f' w') ev env iters m i q' s).1
        (loop cfg ev env iters m i q s).1) := by
  induction m generalizing i q q' s with
  | zero => exact .inl rfl
  | succ m ih =>
    have hg := loop_grows cfg ev env iters (m + 1) i q s
    rw [loop, loop] at *
    unfold iterate at *
    cases hev : ev i s.swarm.position with
    | error e => exact .inl rfl
    | ok c =>
      rw [hev] at hg
      have hcg : ∀ t sw, callGbest (cfg.withStop f' w') (env i).oracle t sw =
        callGbest cfg (env i).oracle t sw := fun _ _ => rfl
      have hmv : ∀ t, moveSwarm (cfg.withStop f' w') (env i) iters i t =
        moveSwarm cfg (env i) iters i t := fun _ => rfl
      dsimp only at hg ⊢
      rw [hcg]
      rcases callGbest cfg (env i).oracle (recordEval c s).top (recordEval c s).swarm with
        ⟨t, e | g⟩
      · exact .inl rfl
      · dsimp only at hg ⊢
        have hq1 := hq.append hw (ftolDelta_mono hn hf
          (recordBest t g (recordEval c s)).swarm.bestCostVal (recordEval c s).swarm.bestCostVal)
        have hft : (cfg.withStop f' w').ftol = f' := rfl
        rw [hft]
        generalize hQ : dequeAppend cfg.window q (ftolDelta cfg.ftol
          (recordBest t g (recordEval c s)).swarm.bestCostVal
          (recordEval c s).swarm.bestCostVal) = Q at hq1 hg ⊢
        generalize dequeAppend (cfg.withStop f' w').window q' (ftolDelta f'
          (recordBest t g (recordEval c s)).swarm.bestCostVal
          (recordEval c s).swarm.bestCostVal) = Q' at hq1 ⊢
        rw [hmv]
        by_cases hs : (decide (¬ i < cfg.window) && Q.all id) = true
        · have hs' : (decide (¬ i < (cfg.withStop f' w').window) && Q'.all id) = true := by
            rw [Bool.and_eq_true, decide_eq_true_eq] at hs ⊢
            exact ⟨by omega, hq1.all hs.2⟩
          rw [if_pos hs, if_pos hs']
          exact .inl rfl
        · rw [if_neg hs]
          by_cases hs' : (decide (¬ i < (cfg.withStop f' w').window) && Q'.all id) = true
          · rw [if_pos hs']
            refine .inr ⟨rfl, ?_⟩
            have hr := moveSwarm_records cfg (env i) iters i (recordBest t g (recordEval c s))
            generalize moveSwarm cfg (env i) iters i (recordBest t g (recordEval c s)) = o at hr ⊢
            obtain ⟨s3, e | ⟨⟩⟩ := o
            · exact .congr hr.symm (.refl _) (.refl _)
            · exact .congr hr.symm (.refl _) (loop_grows cfg ev env iters m (i + 1) Q s3)
          · rw [if_neg hs']
            rcases moveSwarm cfg (env i) iters i (recordBest t g (recordEval c s)) with
              ⟨s3, e | ⟨⟩⟩
            · exact .inl rfl
            · exact ih (i + 1) Q Q' hq1 s3

/-- **C136** (stricter rules run longer).  Take the same optimizer with a larger `ftol` or a smaller
`ftol_iter` (or both), the same random numbers and the same number of iterations: either the two calls
are the same, or the laxer one converged and everything it has recorded and evaluated is an initial
segment of what the stricter one records. -/
theorem C136_stricter (cfg : Config n d K) (f' : XR K) (w' : PyArg K) (hn : f' ≠ .nan)
    (hf : XR.lt f' cfg.ftol = false) (hw : (cfg.withStop f' w').window ≤ cfg.window)
    (ev : Nat → Mat n d K → Except Err (Costs n K)) (iters : Nat) (nproc : Option Nat)
    (env : Nat → Draw n d K) (s : Opt n d K) :
    optimize (cfg.withStop f' w') ev iters nproc env s = optimize cfg ev iters nproc env s ∨
    RecordsPrefix (optimize (cfg.withStop f' w') ev iters nproc env s).1
      (optimize cfg ev iters nproc env s).1 := by
  by_cases hp : nproc = some 0
  · subst hp; exact .inl rfl
  · rcases loop_stricter hn hf hw ev env iters iters 0 [] [] ⟨le_rfl, .nil⟩ (startState cfg nproc s)
      with h | h
    · left
      unfold optimize
      unfold startState at h
      dsimp only at h ⊢
      have hpr : prepare (cfg.withStop f' w') s = prepare cfg s := rfl
      rw [hpr, h]
    · right
      exact .congr (optimize_records (cfg.withStop f' w') ev iters nproc hp env s)
        (optimize_records cfg ev iters nproc hp env s) h.2

/-- **C136** (the price of stopping).  In `GlobalBestPSO`, or with a star topology, the stricter call
ends with a best cost that is not larger. -/
theorem C136_not_worse (hn0 : 0 < n) (cfg : Config n d K) (hk : cfg.kind.isStar) (f' : XR K)
    (w' : PyArg K) (hn : f' ≠ .nan) (hf : XR.lt f' cfg.ftol = false)
    (hw : (cfg.withStop f' w').window ≤ cfg.window)
    (ev : Nat → Mat n d K → Except Err (Costs n K)) (iters : Nat) (nproc : Option Nat)
    (env : Nat → Draw n d K) (s : Opt n d K) (hs : Reachable cfg s) (c c' : XR K)
    (hc : (optimize cfg ev iters nproc env s).1.costHistory.getLast? = some c)
    (hc' : (optimize (cfg.withStop f' w') ev iters nproc env s).1.costHistory.getLast? = some c') :
    XR.lt c' c = false := by
  have hreach : Reachable cfg (optimize cfg ev iters nproc env s).1 := by
    obtain ⟨r1, r2, s0, ops, hcs, rfl⟩ := hs
    exact ⟨r1, r2, s0, ops ++ [.optimize ev iters nproc env], hcs,
      by simp [runOps, List.foldl_append, stepOp]⟩
  have hp : (optimize (cfg.withStop f' w') ev iters nproc env s).1.costHistory <+:
      (optimize cfg ev iters nproc env s).1.costHistory := by
    rcases C136_stricter cfg f' w' hn hf hw ev iters nproc env s with h | h
    · rw [h]
    · exact h.cost
  rw [List.getLast?_eq_getElem?] at hc hc'
  obtain ⟨hl, rfl⟩ := List.getElem?_eq_some_iff.1 hc
  obtain ⟨hl', h1⟩ := List.getElem?_eq_some_iff.1 hc'
  have h2 := C04_cost_history_antitone hn0 cfg hk _ hreach
    ((optimize (cfg.withStop f' w') ev iters nproc env s).1.costHistory.length - 1)
    ((optimize cfg ev iters nproc env s).1.costHistory.length - 1)
    (by have := hp.length_le; omega) hl
  rw [← hp.getElem hl', h1] at h2
  exact h2

/-- The number of iterations with the objective `(x - 5)²`. -/
def Ex.stopping (f : ℚ) (w : Int) : Nat :=
  match construct ((Ex.gcfg 2 1).withStop (.fin f) (.int w)) (Ex.init 2 1) (Ex.init 2 1) with
  | .ok s => (optimize ((Ex.gcfg 2 1).withStop (.fin f) (.int w))
      (fun _ x => .ok fun i => .fin ((x i 0 - 5) ^ 2)) 4 none
      (fun _ => Ex.draw 2 1) s).1.costHistory.length
  | .error _ => 0

/-- Non-vacuity: a smaller tolerance, or more iterations of patience, makes the run longer. -/
example : Ex.stopping 1 1 = 2 ∧ Ex.stopping 1 2 = 3 ∧ Ex.stopping (1 / 100) 1 = 4 := by
  decide +kernel

end PySwarms
