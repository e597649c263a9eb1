import Verif.Model.CostType
import Verif.Props.Best
import Verif.Props.Objective
import Verif.Props.ReflectiveFar

/-!
C105: objectives that return integer arrays or arrays of Python objects.
-/

set_option linter.unusedSectionVars false

namespace PySwarms.Ct

variable {n d : Nat} {K : Type} [Field K] [LinearOrder K] [Transc K] [FloorRing K]

/-- The costs converted to `float64` as soon as they are returned (no code of its own). -/
def CostArr.plain (i2f : ℤ → XR K) : CostArr n K → Costs n K
  | .float c => c
  | .int z => fun i => i2f (z i)
  | .obj z => fun i => .fin (z i : K)

/-- The objective that converts its costs to `float64` itself (no code of its own). -/
def converted (i2f : ℤ → XR K) (ev : Nat → Mat n d K → Except Err (CostArr n K)) :
    Nat → Mat n d K → Except Err (Costs n K) := fun k x => (ev k x).map (CostArr.plain i2f)

/-- The objective never returns an array of Python objects. -/
def Numeric (ev : Nat → Mat n d K → Except Err (CostArr n K)) : Prop :=
  ∀ k x z, ev k x ≠ .ok (.obj z)

theorem iterateC_numeric (i2f : ℤ → XR K) (cfg : Config n d K)
    (ev : Nat → Mat n d K → Except Err (CostArr n K)) (hev : Numeric ev) (k : Nat)
    (r : Draw n d K) (iters i : Nat) (q : List Bool) (s : Opt n d K) :
    iterateC i2f cfg (ev k) r iters i q ⟨s, false, false⟩ =
      (⟨(iterate cfg (converted i2f ev k) r iters i q s).1, false, false⟩,
        (iterate cfg (converted i2f ev k) r iters i q s).2) := by
  unfold iterateC iterate converted
  simp only
  cases he : ev k s.swarm.position with
  | error e => rfl
  | ok a =>
    have hobj : a.isObj = false := by
      cases a with
      | obj z => exact absurd he (hev _ _ _)
      | _ => rfl
    have hv : a.vals i2f false = a.plain i2f := by
      cases a <;> rfl
    simp only [Except.map, hobj, Bool.or_self, bne_self_eq_false, Bool.and_false, hv,
      Bool.false_eq_true, if_false, ite_self]
    generalize recordEval (a.plain i2f) s = s1
    cases hg : callGbest cfg r.oracle s1.top s1.swarm with
    | mk t g =>
      cases g with
      | error e => rfl
      | ok g =>
        simp only
        split
        · rfl
        · cases hm : moveSwarm cfg r iters i (recordBest t g s1) with
          | mk s3 u => cases u <;> rfl

theorem loopC_numeric (i2f : ℤ → XR K) (cfg : Config n d K)
    (ev : Nat → Mat n d K → Except Err (CostArr n K)) (hev : Numeric ev)
    (env : Nat → Draw n d K) (iters m i : Nat) (q : List Bool) (s : Opt n d K) :
    loopC i2f cfg ev env iters m i q ⟨s, false, false⟩ =
      (⟨(loop cfg (converted i2f ev) env iters m i q s).1, false, false⟩,
        (loop cfg (converted i2f ev) env iters m i q s).2) := by
  induction m generalizing i q s with
  | zero => rfl
  | succ m ih =>
    unfold loopC loop
    rw [iterateC_numeric i2f cfg ev hev]
    cases h : iterate cfg (converted i2f ev i) (env i) iters i q s with
    | mk s1 f =>
      cases f with
      | error e => rfl
      | ok f => cases f with
        | stop => rfl
        | «continue» q' => exact ih _ _ _

/-- **C105** (integer costs, one call).  A call of `optimize` of any class, whose objective returns
`float64` or integer arrays, does exactly what the call does with an objective that converts its
integers to `float64` itself: same final state, same result or exception. -/
theorem C105_converted (i2f : ℤ → XR K) (cfg : Config n d K)
    (ev : Nat → Mat n d K → Except Err (CostArr n K)) (hev : Numeric ev) (iters : Nat)
    (nproc : Option Nat) (env : Nat → Draw n d K) (s : Opt n d K) :
    optimizeC i2f cfg ev iters nproc env ⟨s, false, false⟩ =
      (⟨(optimize cfg (converted i2f ev) iters nproc env s).1, false, false⟩,
        (optimize cfg (converted i2f ev) iters nproc env s).2) := by
  unfold optimizeC optimize
  split
  · rfl
  · simp only
    rw [loopC_numeric i2f cfg ev hev]
    cases h : loop cfg (converted i2f ev) env iters iters 0 []
        { prepare cfg s with openPools := s.openPools + (if nproc.isSome then 1 else 0) } with
    | mk s1 f =>
      cases f with
      | error e => rfl
      | ok u =>
        simp only [finishC, Bool.false_eq_true, if_false]
        cases finish s1 <;> rfl

/-- The call with converted costs (no code of its own). -/
def OpC.convert (i2f : ℤ → XR K) : OpC n d K → Op n d K
  | .optimize ev iters nproc env => .optimize (converted i2f ev) iters nproc env
  | .reset r => .reset r

/-- **C105** (integer costs, histories).  The same for every history of `optimize` and `reset`
calls. -/
theorem C105_converted_history (i2f : ℤ → XR K) (cfg : Config n d K) (s : Opt n d K)
    (ops : List (OpC n d K))
    (hops : ∀ ev iters nproc env, OpC.optimize ev iters nproc env ∈ ops → Numeric ev) :
    runOpsC i2f cfg ⟨s, false, false⟩ ops =
      ⟨runOps cfg s (ops.map (OpC.convert i2f)), false, false⟩ := by
  induction ops generalizing s with
  | nil => rfl
  | cons op ops ih =>
    have ih' := fun s => ih s fun ev a b c h => hops ev a b c (List.mem_cons_of_mem _ h)
    cases op with
    | optimize ev iters nproc env =>
      have := C105_converted i2f cfg ev (hops _ _ _ _ (List.mem_cons_self ..)) iters nproc env s
      show runOpsC i2f cfg (optimizeC i2f cfg ev iters nproc env ⟨s, false, false⟩).1 ops = _
      rw [this]
      exact ih' _
    | reset r =>
      show runOpsC i2f cfg (resetC cfg r ⟨s, false, false⟩).1 ops = _
      have : (resetC cfg r (⟨s, false, false⟩ : COpt n d K)).1 = ⟨(reset cfg r s).1, false, false⟩ := by
        unfold resetC
        simp only
        cases reset cfg r s with
        | mk o u => cases u <;> rfl
      rw [this]
      exact ih' _

/-- **C105** (moderate integers).  When all integer costs are between `-2^53` and `2^53`, the
conversion to binary64 loses nothing: the call is the one with the exact integers as costs. -/
theorem C105_exact (cfg : Config n d ℚ) [Transc ℚ] (f : Nat → Mat n d ℚ → Except Err (Fin n → ℤ))
    (hf : ∀ k x z i, f k x = .ok z → |z i| ≤ 2 ^ 53) (iters : Nat) (nproc : Option Nat)
    (env : Nat → Draw n d ℚ) (s : Opt n d ℚ) :
    optimizeC toDouble cfg (fun k x => (f k x).map .int) iters nproc env ⟨s, false, false⟩ =
      (⟨(optimize cfg (fun k x => (f k x).map fun z i => .fin (z i : ℚ)) iters nproc env s).1,
          false, false⟩,
        (optimize cfg (fun k x => (f k x).map fun z i => .fin (z i : ℚ)) iters nproc env s).2) := by
  rw [C105_converted toDouble cfg _ (fun k x z h => by
    cases h' : f k x with
    | error e => simp [h', Except.map] at h
    | ok z' => simp [h', Except.map] at h)]
  have : converted toDouble (fun k x => (f k x).map .int) =
      fun k x => (f k x).map fun z i => XR.fin (z i : ℚ) := by
    funext k x
    unfold converted
    simp only
    cases h : f k x with
    | error e => rfl
    | ok z =>
      simp only [Except.map, CostArr.plain]
      congr 1
      funext i
      unfold toDouble
      rw [f64_of_isDouble]
      exact ⟨z i, 0, hf k x z i h, by norm_num, by simp⟩
  rw [this]

theorem f64pos_err_ge_one {y : ℚ} (hy : 1 ≤ y) : |f64pos y - y| ≤ y / 2 ^ 53 := by
  have hy0 : 0 < y := by linarith
  have hpos := two_zpow_pos (lastPlace y)
  have hnear := roundEven_near (y / 2 ^ lastPlace y)
  have hb : |f64pos y - y| ≤ 2 ^ lastPlace y / 2 := by
    have e : f64pos y - y = (roundEven (y / 2 ^ lastPlace y) - y / 2 ^ lastPlace y) *
        2 ^ lastPlace y := by
      unfold f64pos
      rw [sub_mul, div_mul_cancel₀ _ hpos.ne']
    rw [e, abs_mul, abs_of_pos hpos]
    have : |(roundEven (y / 2 ^ lastPlace y) : ℚ) - y / 2 ^ lastPlace y| ≤ 1 / 2 := by
      rw [abs_le]; constructor <;> linarith [hnear.1, hnear.2]
    have := mul_le_mul_of_nonneg_right this hpos.le
    linarith
  refine le_trans hb ?_
  have h : -1074 < lastPlace y := by
    have : 0 ≤ Int.log 2 y := by
      rw [Int.log_of_one_le_right 2 hy]
      exact Int.natCast_nonneg _
    unfold lastPlace
    exact lt_max_of_lt_left (by omega)
  have h1 := lastPlace_le hy0 h
  have h2 : (2 : ℚ) ^ (lastPlace y + 52) = 2 ^ lastPlace y * 2 ^ 52 := by
    rw [zpow_add₀ (by norm_num)]; rfl
  rw [h2] at h1
  rw [div_le_div_iff₀ (by norm_num) (by norm_num)]
  have : (2 : ℚ) ^ 53 = 2 ^ 52 * 2 := by norm_num
  rw [this]
  nlinarith

/-- The error of the conversion of an integer. -/
theorem f64_int_err (z : ℤ) : |f64 z - z| ≤ |(z : ℚ)| / 2 ^ 53 := by
  rcases lt_trichotomy z 0 with h | h | h
  · have hz : (z : ℚ) ≤ -1 := by exact_mod_cast Int.le_sub_one_of_lt h
    have h0 : (z : ℚ) < 0 := by linarith
    unfold f64
    rw [if_pos h0, abs_of_neg h0]
    have := f64pos_err_ge_one (y := -(z : ℚ)) (by linarith)
    have e : -f64pos (-(z : ℚ)) - z = -(f64pos (-z) - -z) := by ring
    rw [e, abs_neg]
    exact this
  · subst h
    rw [f64_of_isDouble ⟨0, 0, by norm_num, by norm_num, by norm_num⟩]
    simp
  · have hz : (1 : ℚ) ≤ z := by exact_mod_cast h
    have h0 : (0 : ℚ) < z := by linarith
    unfold f64
    rw [if_neg (not_lt.2 h0.le), abs_of_pos h0]
    exact f64pos_err_ge_one hz

/-- **C105** (large integers).  The first call on a fresh GlobalBestPSO whose objective returns
integers returns a position it evaluated, and the cost returned is the integer evaluated there, `z`,
converted to binary64.  No integer evaluated in the call converts to a smaller double; so `z` exceeds
the integer cost `z'` of any other evaluation by at most `(|z| + |z'|) / 2^53`. -/
theorem C105_nearly_optimal (hn : 0 < n) [Transc ℚ] (cfg : Config n d ℚ) (hk : cfg.kind.isStar)
    (s : Opt n d ℚ) (hs : Fresh cfg s) (f : Nat → Mat n d ℚ → Except Err (Fin n → ℤ)) (iters : Nat)
    (nproc : Option Nat) (env : Nat → Draw n d ℚ) (s' : COpt n d ℚ) (c : XR ℚ) (p : Vec d ℚ)
    (ho : optimizeC toDouble cfg (fun k x => (f k x).map .int) iters nproc env ⟨s, false, false⟩ =
      (s', .ok (c, p))) :
    ∃ t, ∃ (ht : t < s'.opt.evals.length), ∃ z i, f t s'.opt.evals[t].1 = .ok z ∧
      s'.opt.evals[t].1 i = p ∧ c = .fin (f64 (z i)) ∧
      ∀ (t' : Nat) (ht' : t' < s'.opt.evals.length), ∃ z', f t' s'.opt.evals[t'].1 = .ok z' ∧
        ∀ j, f64 (z i) ≤ f64 (z' j) ∧
          ((z i : ℚ) - z' j ≤ (|(z i : ℚ)| + |(z' j : ℚ)|) / 2 ^ 53) := by
  rw [C105_converted toDouble cfg _ (fun k x z h => by
    cases h' : f k x with
    | error e => simp [h', Except.map] at h
    | ok z' => simp [h', Except.map] at h)] at ho
  generalize hr : optimize cfg (converted toDouble fun k x => (f k x).map .int) iters nproc env s = R
    at ho
  obtain ⟨o, res⟩ := R
  simp only [Prod.mk.injEq] at ho
  obtain ⟨rfl, rfl⟩ := ho
  obtain ⟨hlog, ⟨e, he, i, hp, hc⟩, hmin⟩ := C05_first_call hn cfg hk s hs _ iters nproc env o c p hr
  have hlog' : ∀ (t : Nat) (ht : t < o.evals.length), ∃ z, f t o.evals[t].1 = .ok z ∧
      o.evals[t].2 = fun i => .fin (f64 (z i)) := by
    intro t ht
    have := hlog t ht
    unfold converted at this
    simp only at this
    cases h' : f t o.evals[t].1 with
    | error e => rw [h'] at this; cases this
    | ok z =>
      rw [h'] at this
      exact ⟨z, rfl, (Except.ok.inj this).symm⟩
  obtain ⟨t, ht, rfl⟩ := List.getElem_of_mem he
  obtain ⟨z, hz, hz2⟩ := hlog' t ht
  have hc' : c = .fin (f64 (z i)) := by rw [← hc, hz2]
  refine ⟨t, ht, z, i, hz, hp, hc', fun t' ht' => ?_⟩
  obtain ⟨z', hz', hz2'⟩ := hlog' t' ht'
  refine ⟨z', hz', fun j => ?_⟩
  have h := hmin _ (List.getElem_mem ht') j
  rw [hz2', hc'] at h
  have hle : f64 (z i) ≤ f64 (z' j) := by
    simpa [XR.lt] using h
  refine ⟨hle, ?_⟩
  have h1 := abs_le.1 (f64_int_err (z i))
  have h2 := abs_le.1 (f64_int_err (z' j))
  have h3 : |(z i : ℚ)| / 2 ^ 53 + |(z' j : ℚ)| / 2 ^ 53 = (|(z i : ℚ)| + |(z' j : ℚ)|) / 2 ^ 53 := by
    ring
  linarith [h1.1, h1.2, h2.1, h2.2]

/-- An objective with integer costs just above `2^53` (no code of its own). -/
def Ex.big : Nat → Mat 2 1 ℚ → Except Err (Fin 2 → ℤ) := fun _ _ =>
  .ok fun i => if i = 0 then 2 ^ 53 + 1 else 2 ^ 53

/-- **C105** (large integers, witness).  An objective whose costs are `2^53 + 1` for the first
particle and `2^53` for the second: the call returns the position of the first particle, whose cost
is not the least integer evaluated, together with a cost which no evaluation at that position
gave. -/
theorem C105_not_optimal : ∃ (s : Opt 2 1 ℚ) (s' : COpt 2 1 ℚ) (p : Vec 1 ℚ),
    Fresh (PySwarms.Ex.gcfg 2 1) s ∧
    optimizeC toDouble (PySwarms.Ex.gcfg 2 1) (fun k x => (Ex.big k x).map .int) 1 none
      (fun _ => PySwarms.Ex.draw 2 1) ⟨s, false, false⟩ = (s', .ok (.fin (2 ^ 53), p)) ∧
    p = s.swarm.position 0 ∧ p ≠ s.swarm.position 1 := by
  have hc : ∃ s0, construct (PySwarms.Ex.gcfg 2 1) (PySwarms.Ex.init 2 1) (PySwarms.Ex.init 2 1) = .ok s0 :=
    ⟨_, rfl⟩
  obtain ⟨s0, hs0⟩ := hc
  have h : (match construct (PySwarms.Ex.gcfg 2 1) (PySwarms.Ex.init 2 1) (PySwarms.Ex.init 2 1) with
    | .ok s =>
      match optimizeC toDouble (PySwarms.Ex.gcfg 2 1) (fun k x => (Ex.big k x).map .int) 1 none
        (fun _ => PySwarms.Ex.draw 2 1) ⟨s, false, false⟩ with
      | (_, .ok (c, p)) => decide (c = .fin (2 ^ 53) ∧ p 0 = s.swarm.position 0 0 ∧
          p 0 ≠ s.swarm.position 1 0)
      | _ => false
    | _ => false) = true := by decide +kernel
  rw [hs0] at h
  simp only at h
  split at h
  · next s' c p heq =>
    have h := of_decide_eq_true h
    obtain ⟨rfl, h1, h2⟩ := h
    refine ⟨s0, s', p, .inl ⟨_, _, hs0⟩, heq, ?_, fun he => h2 (by rw [he])⟩
    funext j
    have : j = 0 := Subsingleton.elim _ _
    rw [this, h1]
  · cases h

/-! ### Arrays of Python objects -/

theorem nbrBest_isSome {nbr : Fin n → List (Fin n)} {s : Swarm n d K} {g : GBest n d K}
    (h : nbrBest nbr s = .ok g) : g.2.isSome = true := by
  unfold nbrBest at h
  split at h
  · cases h
  · unfold gatherBest at h
    split at h
    · cases h
    · cases h; rfl

theorem ringGbest_isSome {st : Bool} {k p : Nat} {o : Oracle n d K} {t t' : TopState n}
    {s : Swarm n d K} {g : GBest n d K} (h : ringGbest st k p o t s = (t', .ok g)) :
    g.2.isSome = true := by
  unfold ringGbest at h
  simp only at h
  split at h
  · cases h
  · split at h
    · split at h
      · cases h
      · simp only [Prod.mk.injEq] at h
        have := h.2
        unfold gatherBest at this
        split at this
        · cases this
        · cases this; rfl
    · split at h
      · cases h
      · simp only [Prod.mk.injEq] at h
        exact nbrBest_isSome h.2

theorem computeGbest_isSome {top : TopKind} (ht : top ≠ .star) {args : TopArgs} {o : Oracle n d K}
    {t t' : TopState n} {s : Swarm n d K} {g : GBest n d K}
    (h : computeGbest top args o t s = (t', .ok g)) : g.2.isSome = true := by
  unfold computeGbest at h
  split at h
  · exact absurd rfl ht
  · split at h
    · exact ringGbest_isSome h
    · cases h
  · split at h
    · exact ringGbest_isSome h
    · cases h
  · unfold pyramidGbest at h
    split at h
    · simp only at h
      split at h
      · cases h
      · cases h; rfl
    · simp only at h
      split at h
      · cases h
      · split at h
        · cases h
        · simp only [Prod.mk.injEq] at h
          exact nbrBest_isSome h.2
  · split at h
    · unfold randomGbest at h
      simp only at h
      split at h
      · cases h
      · split at h
        · cases h
        · simp only [Prod.mk.injEq] at h
          exact nbrBest_isSome h.2
    · cases h

theorem callGbest_type {cfg : Config n d K} {o : Oracle n d K} {t t' : TopState n}
    {s : Swarm n d K} {g : GBest n d K} (h : callGbest cfg o t s = (t', .ok g)) :
    (if keepsOld cfg && !XR.lt (g.2.getD XR.pinf) s.bestCostVal then s.bestCost.isSome else true) =
      g.2.isSome := by
  have hstar : ∀ t', starGbest t s = (t', .ok g) →
      (if !XR.lt (g.2.getD XR.pinf) s.bestCostVal then s.bestCost.isSome else true) = g.2.isSome := by
    intro t' h
    unfold starGbest at h
    simp only at h
    split at h
    · cases h
    · split at h
      · next hl =>
        cases h
        simp [hl]
      · cases h
        have : XR.lt (s.bestCost.getD XR.pinf) s.bestCostVal = false := XR.lt_irrefl _
        simp [this]
  unfold callGbest at h
  unfold keepsOld
  split at h <;> rename_i hk <;> simp only [hk]
  · simpa using hstar t' h
  · simpa using (computeGbest_isSome (by simp) h).symm
  · rename_i top
    cases top with
    | star => simpa using hstar t' h
    | _ => simpa using (computeGbest_isSome (by simp) h).symm
  · simpa using (computeGbest_isSome (by simp) h).symm

/-- The typed call follows the exact one, and at a normal end the best cost, if there is one, is a
Python object (no code of its own). -/
def Follows {α : Type} (a : COpt n d K × Except Err α) (b : Opt n d K × Except Err α) : Prop :=
  a.1.opt = b.1 ∧ a.2 = b.2 ∧ ∀ x, b.2 = .ok x → a.1.bestObj = b.1.swarm.bestCost.isSome

theorem iterateC_obj (i2f : ℤ → XR K) (cfg : Config n d K) (f : Mat n d K → Except Err (Fin n → ℤ))
    (r : Draw n d K) (iters i : Nat) (q : List Bool) (s : COpt n d K)
    (hs : s.bestObj = s.opt.swarm.bestCost.isSome) :
    Follows (iterateC i2f cfg (fun x => (f x).map .obj) r iters i q s)
      (iterate cfg (fun x => (f x).map fun z i => .fin (z i : K)) r iters i q s.opt) := by
  unfold iterateC iterate
  beta_reduce
  cases he : f s.opt.swarm.position with
  | error e => exact ⟨rfl, rfl, fun x h => by cases h⟩
  | ok z =>
    have hbo : (s.opt.swarm.bestCost.isSome && (s.pbObj || true) != s.bestObj) = false := by
      rw [hs]; cases s.opt.swarm.bestCost.isSome <;> simp
    simp only [Except.map, CostArr.isObj, hbo, Bool.false_eq_true, if_false, CostArr.vals]
    have h1 : (recordEval (fun i => XR.fin (z i : K)) s.opt).swarm.bestCost = s.opt.swarm.bestCost := rfl
    cases hg : callGbest cfg r.oracle (recordEval (fun i => XR.fin (z i : K)) s.opt).top
        (recordEval (fun i => XR.fin (z i : K)) s.opt).swarm with
    | mk t g =>
      cases g with
      | error e => exact ⟨rfl, rfl, fun x h => by cases h⟩
      | ok g =>
        have ht := callGbest_type hg
        have h2 : (recordBest t g (recordEval (fun i => XR.fin (z i : K)) s.opt)).swarm.bestCostVal = g.2.getD XR.pinf := rfl
        have h3 : (recordBest t g (recordEval (fun i => XR.fin (z i : K)) s.opt)).swarm.bestCost = g.2 := rfl
        have hbo' : (if keepsOld cfg && !XR.lt
            (recordBest t g (recordEval (fun i => XR.fin (z i : K)) s.opt)).swarm.bestCostVal
            (recordEval (fun i => XR.fin (z i : K)) s.opt).swarm.bestCostVal then s.bestObj
            else s.pbObj || true) =
            (recordBest t g (recordEval (fun i => XR.fin (z i : K)) s.opt)).swarm.bestCost.isSome := by
          rw [h2, h3, ← ht, hs, h1]
          simp
        simp only
        by_cases hst : (decide (¬ i < cfg.window) && (dequeAppend cfg.window q (ftolDelta cfg.ftol
            (recordBest t g (recordEval (fun i => XR.fin (z i : K)) s.opt)).swarm.bestCostVal
            (recordEval (fun i => XR.fin (z i : K)) s.opt).swarm.bestCostVal)).all id) = true
        · simp only [hst, if_true]
          refine ⟨rfl, rfl, fun _ _ => ?_⟩
          exact hbo'
        · simp only [hst, if_false, Bool.false_eq_true]
          have hf := moveSwarm_frame cfg r iters i (recordBest t g (recordEval (fun i => XR.fin (z i : K)) s.opt))
          cases hm : moveSwarm cfg r iters i (recordBest t g (recordEval (fun i => XR.fin (z i : K)) s.opt)) with
          | mk s3 u =>
            rw [hm] at hf
            simp only at hf
            cases u with
            | error e => exact ⟨rfl, rfl, fun x h => by cases h⟩
            | ok u =>
              refine ⟨rfl, rfl, fun _ _ => ?_⟩
              exact hbo'.trans (congrArg Option.isSome hf.2.2.2.1.symm)

theorem loopC_obj (i2f : ℤ → XR K) (cfg : Config n d K)
    (f : Nat → Mat n d K → Except Err (Fin n → ℤ)) (env : Nat → Draw n d K) (iters m i : Nat)
    (q : List Bool) (s : COpt n d K) (hs : s.bestObj = s.opt.swarm.bestCost.isSome) :
    Follows (loopC i2f cfg (fun k x => (f k x).map .obj) env iters m i q s)
      (loop cfg (fun k x => (f k x).map fun z i => .fin (z i : K)) env iters m i q s.opt) := by
  induction m generalizing i q s with
  | zero => exact ⟨rfl, rfl, fun _ _ => hs⟩
  | succ m ih =>
    unfold loopC loop
    have h := iterateC_obj i2f cfg (f i) (env i) iters i q s hs
    generalize iterateC i2f cfg (fun x => (f i x).map .obj) (env i) iters i q s = A at h ⊢
    generalize iterate cfg (fun x => (f i x).map fun z i => XR.fin (z i : K)) (env i) iters i q s.opt
      = B at h ⊢
    obtain ⟨A1, A2⟩ := A
    obtain ⟨B1, B2⟩ := B
    obtain ⟨h1, h2, h3⟩ := h
    simp only at h1 h2 h3
    subst h1 h2
    cases A2 with
    | error e => exact ⟨rfl, rfl, fun x h => by cases h⟩
    | ok fl =>
      cases fl with
      | stop => exact ⟨rfl, rfl, fun _ _ => h3 _ rfl⟩
      | «continue» q' => exact ih (i + 1) q' A1 (h3 _ rfl)

/-- **C105** (Python objects).  When the objective returns arrays of Python integers
(`dtype=object`), a call of `optimize` of any class on an object that has no best cost yet makes the
same evaluations as with the same exact costs, and raises whatever that call raises; but where that
call returns a result, it raises `AttributeError`, and its worker pool stays open. -/
theorem C105_object (hn : 0 < n) (i2f : ℤ → XR K) (cfg : Config n d K)
    (f : Nat → Mat n d K → Except Err (Fin n → ℤ)) (iters : Nat) (nproc : Option Nat)
    (env : Nat → Draw n d K) (s : Opt n d K) (hs : s.swarm.bestCost = none)
    (a : COpt n d K × Except Err (XR K × Vec d K)) (b : Opt n d K × Except Err (XR K × Vec d K))
    (ha : optimizeC i2f cfg (fun k x => (f k x).map .obj) iters nproc env ⟨s, false, false⟩ = a)
    (hb : optimize cfg (fun k x => (f k x).map fun z i => .fin (z i : K)) iters nproc env s = b) :
    a.1.opt.evals = b.1.evals ∧ (∀ e, b.2 = .error e → a.2 = .error e) ∧
    (∀ r, b.2 = .ok r → a.2 = .error .attributeError ∧
      a.1.opt.openPools = s.openPools + (if nproc.isSome then 1 else 0)) := by
  unfold optimizeC at ha
  unfold optimize at hb
  split at ha
  · next hp =>
    rw [if_pos hp] at hb
    subst ha hb
    exact ⟨rfl, fun e h => h, fun r h => by cases h⟩
  · next hp =>
    rw [if_neg hp] at hb
    simp only at ha hb
    have h := loopC_obj i2f cfg f env iters iters 0 [] ⟨{ prepare cfg s with
      openPools := s.openPools + (if nproc.isSome then 1 else 0) }, false, false⟩
      (by show false = s.swarm.bestCost.isSome; rw [hs]; rfl)
    have hpool := loop_inv cfg (fun k x => (f k x).map fun z i => XR.fin (z i : K)) env iters
      (fun o => o.openPools = s.openPools + (if nproc.isSome then 1 else 0))
      (fun i q o ho => (congrArg (·.1.openPools)
        (iterate_pools cfg _ (env i) iters i q o o.openPools)).trans ho) iters 0 []
      { prepare cfg s with openPools := s.openPools + (if nproc.isSome then 1 else 0) } rfl
    simp only at h hpool
    generalize loopC i2f cfg (fun k x => (f k x).map .obj) env iters iters 0 [] _ = A at h ha
    generalize loop cfg (fun k x => (f k x).map fun z i => XR.fin (z i : K)) env iters iters 0 [] _
      = B at h hb hpool
    obtain ⟨A1, A2⟩ := A
    obtain ⟨B1, B2⟩ := B
    obtain ⟨h1, h2, h3⟩ := h
    simp only at h1 h2 h3 hpool
    subst h1 h2
    cases A2 with
    | error e =>
      subst ha hb
      exact ⟨rfl, fun _ h => h, fun r h => by cases h⟩
    | ok u =>
      have hbo := h3 u rfl
      simp only at ha hb
      cases hbc : A1.opt.swarm.bestCost with
      | none =>
        have hf1 : finish A1.opt = .error .attributeError := by unfold finish; rw [hbc]
        have hf2 : finishC A1 = .error .attributeError := by
          unfold finishC; rw [hbo, hbc]; simp [hf1]
        rw [hf1] at hb
        rw [hf2] at ha
        subst ha hb
        exact ⟨rfl, fun _ h => h, fun r h => by cases h⟩
      | some c =>
        have hf2 : finishC A1 = .error .attributeError := by
          unfold finishC; rw [hbo, hbc]; simp
        rw [hf2] at ha
        subst ha
        cases hf1 : finish A1.opt with
        | error e =>
          rw [hf1] at hb
          subst hb
          refine ⟨rfl, fun e' h => ?_, fun r h => by cases h⟩
          exfalso
          unfold finish at hf1
          rw [hbc] at hf1
          simp only at hf1
          cases hm : npArgmin A1.opt.swarm.pbestCost with
          | none => rw [npArgmin_none] at hm; omega
          | some k => rw [hm] at hf1; cases hf1
        | ok r =>
          rw [hf1] at hb
          subst hb
          refine ⟨rfl, ?_, ?_⟩
          · intro e h
            cases h
          · intro r' _
            exact ⟨rfl, hpool⟩

/-- An objective with small integer costs that change with the position (no code of its own). -/
def Ex.ints : Nat → Mat 2 1 ℚ → Except Err (Fin 2 → ℤ) := fun k x =>
  .ok fun i => ⌊4 * x i 0⌋ % 7 - (k % 5 : ℕ)

/-- The objective satisfies the hypothesis of `C105_exact`. -/
example : ∀ k x z i, Ex.ints k x = .ok z → |z i| ≤ 2 ^ 53 := by
  intro k x z i h
  cases h
  have h1 := Int.emod_nonneg ⌊4 * x i 0⌋ (show (7 : ℤ) ≠ 0 by norm_num)
  have h2 := Int.emod_lt_of_pos ⌊4 * x i 0⌋ (show (0 : ℤ) < 7 by norm_num)
  simp only
  rw [abs_le]
  constructor <;> push_cast <;> omega

/-- The same run with integer costs and with Python objects (no code of its own). -/
def Ex.run (obj : Bool) (m : Nat) : Option (Nat × Option (ℚ × ℚ) × Bool × Nat) :=
  match construct (PySwarms.Ex.gcfg 2 1) (PySwarms.Ex.init 2 1) (PySwarms.Ex.init 2 1) with
  | .ok s =>
    let a := optimizeC toDouble (PySwarms.Ex.gcfg 2 1)
      (fun k x => (Ex.ints k x).map fun z => if obj then .obj z else .int z) m (some 2)
      (fun _ => PySwarms.Ex.draw 2 1) ⟨s, false, false⟩
    some (a.1.opt.evals.length, (match a.2 with
      | .ok (.fin c, p) => some (c, p 0)
      | _ => none), (match a.2 with
      | .error .attributeError => true
      | _ => false), a.1.opt.openPools)
  | .error _ => none

-- Integer costs work; the same integers as Python objects end in `AttributeError` with a pool open.
example : Ex.run false 2 = some (2, some (0, 0), false, 0) ∧
    Ex.run true 2 = some (2, none, true, 1) := by
  decide +kernel

end PySwarms.Ct
