import Verif.Model.MeanTree
import Verif.Lemmas.Ieee
import Verif.Lemmas.FloatFunctions
import Verif.Lemmas.Rounded
import Verif.Props.Rounding
import Verif.Examples

/-!
# C128: `mean_pbest_history` in floating point
-/

set_option linter.unusedSectionVars false

namespace PySwarms

open Fl (SumTree)

section
variable {n d : Nat} {K : Type} [Field K] [LinearOrder K] [IsStrictOrderedRing K] [Transc K]
  [FloorRing K]

/-! ## What is recorded, for every arithmetic -/

/-- The entries `M` appended by the evaluations `E`: entry `t` is the machine's mean of the smallest
costs of the particles in the first `t+1` evaluations. -/
def MeansOf (mean : Costs n K → XR K) (E : List (Mat n d K × Costs n K)) (M : List (XR K)) : Prop :=
  M.length ≤ E.length ∧ ∀ (t : Nat) (h : t < M.length), ∃ b : Costs n K,
    (∀ i, IsMinOf (b i) ((E.take (t + 1)).map (·.2 i))) ∧ M[t] = mean b

theorem MeansOf.snoc_eval {mean : Costs n K → XR K} {E : List (Mat n d K × Costs n K)}
    {M : List (XR K)} (h : MeansOf mean E M) (e : Mat n d K × Costs n K) :
    MeansOf mean (E ++ [e]) M := by
  refine ⟨by have := h.1; simp; omega, fun t ht => ?_⟩
  obtain ⟨b, hb, hm⟩ := h.2 t ht
  have hl := h.1
  refine ⟨b, fun i => ?_, hm⟩
  rw [List.take_append_of_le_length (by omega)]
  exact hb i

theorem MeansOf.snoc {mean : Costs n K → XR K} {E : List (Mat n d K × Costs n K)}
    {M : List (XR K)} (h : MeansOf mean E M) (hl : M.length = E.length)
    (e : Mat n d K × Costs n K) (b : Costs n K)
    (hb : ∀ i, IsMinOf (b i) ((E ++ [e]).map (·.2 i))) :
    MeansOf mean (E ++ [e]) (M ++ [mean b]) := by
  refine ⟨by simp [hl], fun t ht => ?_⟩
  rcases Nat.lt_or_ge t M.length with h1 | h1
  · obtain ⟨b', hb', hm⟩ := (h.snoc_eval e).2 t h1
    exact ⟨b', hb', by rw [List.getElem_append_left h1, hm]⟩
  · simp only [List.length_append, List.length_singleton] at ht
    have : t = M.length := by omega
    subst this
    refine ⟨b, fun i => ?_, by simp⟩
    rw [List.take_of_length_le (by simp [hl])]
    exact hb i

/-- Loop invariant. -/
def EntriesInv (mean : Costs n K → XR K) (s0 s : Opt n d K) : Prop :=
  ∃ M E, s.meanPbestHistory = s0.meanPbestHistory ++ M ∧ s.evals = s0.evals ++ E ∧
    MeansOf mean E M ∧ M.length = E.length ∧
    ∀ i, IsMinOf (s.swarm.pbestCost i) (E.map (·.2 i))

/-- What holds at every exit. -/
def EntriesSpec (mean : Costs n K → XR K) (s0 s : Opt n d K) : Prop :=
  ∃ M E, s.meanPbestHistory = s0.meanPbestHistory ++ M ∧ s.evals = s0.evals ++ E ∧
    MeansOf mean E M

theorem EntriesInv.spec {mean : Costs n K → XR K} {s0 s : Opt n d K} (h : EntriesInv mean s0 s) :
    EntriesSpec mean s0 s := by
  obtain ⟨M, E, h1, h2, h3, -⟩ := h
  exact ⟨M, E, h1, h2, h3⟩

theorem isMinOf_step {b c : XR K} {l : List (XR K)} (h : IsMinOf b l) :
    IsMinOf (if XR.lt c b then c else b) (l ++ [c]) := by
  obtain ⟨h1, h2, h3⟩ := h
  by_cases hl : XR.lt c b = true
  · rw [if_pos hl]
    refine ⟨XR.left_ne_nan hl, Or.inr (by simp), fun x hx => ?_⟩
    rw [List.mem_append, List.mem_singleton] at hx
    rcases hx with hx | rfl
    · have := h3 x hx
      refine XR.not_lt_trans h1 this ?_
      revert hl
      cases b <;> cases c <;> simp [XR.lt]
      exact le_of_lt
    · exact XR.lt_irrefl _
  · rw [if_neg hl]
    refine ⟨h1, ?_, fun x hx => ?_⟩
    · rcases h2 with h | h
      · exact Or.inl h
      · exact Or.inr (by simp [h])
    · rw [List.mem_append, List.mem_singleton] at hx
      rcases hx with hx | rfl
      · exact h3 x hx
      · simpa using hl

theorem pbest_step {s : Opt n d K} {E : List (Mat n d K × Costs n K)} (c : Costs n K)
    (h : ∀ i, IsMinOf (s.swarm.pbestCost i) (E.map (·.2 i))) (i : Fin n) :
    IsMinOf ((recordEval c s).swarm.pbestCost i)
      ((E ++ [(s.swarm.position, c)]).map (·.2 i)) := by
  rw [recordEval_pbestCost, List.map_append]
  exact isMinOf_step (h i)

theorem entries_record (A : Arith n d K) {s0 s : Opt n d K} (h : EntriesInv A.mean s0 s)
    (c : Costs n K) (t : TopState n) (g : GBest n d K) :
    EntriesInv A.mean s0 (recordBestR A t g (recordEval c s)) := by
  obtain ⟨M, E, h1, h2, h3, h4, h5⟩ := h
  refine ⟨M ++ [A.mean (recordEval c s).swarm.pbestCost], E ++ [(s.swarm.position, c)], ?_, ?_,
    h3.snoc h4 _ _ (pbest_step c h5), by simp [h4], pbest_step c h5⟩
  · simp [recordBestR, Opt.populateHistory, ← List.append_assoc, ← h1, recordEval]
  · simp [recordBestR, Opt.populateHistory, ← List.append_assoc, ← h2, recordEval]

theorem entries_move (A : Arith n d K) (cfg : Config n d K) (r : Draw n d K) (iters i : Nat)
    {s0 s : Opt n d K} (h : EntriesInv A.mean s0 s) :
    EntriesInv A.mean s0 (moveSwarmR A cfg r iters i s).1 := by
  have e1 : (moveSwarmR A cfg r iters i s).1.meanPbestHistory = s.meanPbestHistory := by
    unfold moveSwarmR
    split
    · rfl
    · simp only []
      split
      · rfl
      · split <;> rfl
  have e2 := sameBests_move A cfg r iters i s
  unfold EntriesInv at h ⊢
  rw [e1, e2.evals, e2.pbestCost]
  exact h

/-- One iteration: the invariant holds again if it goes on, and the statement in any case. -/
theorem entries_iterate (A : Arith n d K) (cfg : Config n d K)
    (ev : Mat n d K → Except Err (Costs n K)) (r : Draw n d K) (iters i : Nat) (q : List Bool)
    {s0 s : Opt n d K} (h : EntriesInv A.mean s0 s) :
    EntriesSpec A.mean s0 (iterateR A cfg ev r iters i q s).1 ∧
      ∀ q', (iterateR A cfg ev r iters i q s).2 = .ok (.continue q') →
        EntriesInv A.mean s0 (iterateR A cfg ev r iters i q s).1 := by
  unfold iterateR
  split
  · exact ⟨h.spec, fun _ hq => by cases hq⟩
  · next c hc =>
    simp only []
    split
    · refine ⟨?_, fun _ hq => by cases hq⟩
      obtain ⟨M, E, h1, h2, h3, h4, h5⟩ := h
      refine ⟨M, E ++ [(s.swarm.position, c)], h1, ?_, h3.snoc_eval _⟩
      simp [recordEval, h2]
    · next t g hg =>
      have h2 := entries_record A h c t g
      split
      · exact ⟨h2.spec, fun _ _ => h2⟩
      · have h3 := entries_move A cfg r iters i h2
        split
        · next s3 e hm =>
          rw [hm] at h3
          exact ⟨h3.spec, fun _ _ => h3⟩
        · next s3 hm =>
          rw [hm] at h3
          exact ⟨h3.spec, fun _ _ => h3⟩

theorem entries_loop (A : Arith n d K) (cfg : Config n d K)
    (ev : Nat → Mat n d K → Except Err (Costs n K)) (env : Nat → Draw n d K) (iters : Nat)
    (s0 : Opt n d K) (m i : Nat) (q : List Bool) (s : Opt n d K) (h : EntriesInv A.mean s0 s) :
    EntriesSpec A.mean s0 (loopR A cfg ev env iters m i q s).1 := by
  induction m generalizing i q s with
  | zero => exact h.spec
  | succ m ih =>
    have h1 := entries_iterate A cfg (ev i) (env i) iters i q h
    rw [loopR]
    split
    · next s' e he => rw [he] at h1; exact h1.1
    · next s' he => rw [he] at h1; exact h1.1
    · next s' q' he =>
      rw [he] at h1
      exact ih _ _ _ (h1.2 q' rfl)

/-- **C128** (what is recorded).  For every arithmetic, every class and every objective: the entries
a call of `optimize` appends to `mean_pbest_history`, also when it ends with an exception, are the
machine's mean of the smallest cost of each particle in the first, the first two, … evaluations of
the call. -/
theorem C128_entries (A : Arith n d K) (cfg : Config n d K)
    (ev : Nat → Mat n d K → Except Err (Costs n K)) (iters : Nat) (nproc : Option Nat)
    (env : Nat → Draw n d K) (s : Opt n d K) :
    ∃ M E, (optimizeR A cfg ev iters nproc env s).1.meanPbestHistory = s.meanPbestHistory ++ M ∧
      (optimizeR A cfg ev iters nproc env s).1.evals = s.evals ++ E ∧ MeansOf A.mean E M := by
  have hl := entries_loop A cfg ev env iters s iters 0 [] (startState cfg nproc s)
    ⟨[], [], by simp [startState, prepare], by simp [startState, prepare],
      ⟨by simp, fun t ht => absurd ht (by simp)⟩, rfl, fun i => ⟨by simp [startState, prepare],
        Or.inl rfl, by simp⟩⟩
  have hc := optimizeR_cases A cfg ev iters nproc env s
  generalize (optimizeR A cfg ev iters nproc env s).1 = s' at hc ⊢
  generalize (optimizeR A cfg ev iters nproc env s).2 = o at hc
  cases hc with
  | badPool h => exact ⟨[], [], by simp, by simp, by simp, fun t ht => absurd ht (by simp)⟩
  | loopError s1 e hp h => rw [h] at hl; exact hl
  | finishError s1 e hp h hf => rw [h] at hl; exact hl
  | done s1 r hp h hf => rw [h] at hl; exact hl

/-! ## The mean in any order of addition is monotone -/

theorem XR.add_mono {a a' b b' : XR K} (h1 : XR.lt a' a = false) (h2 : XR.lt b' b = false)
    (ha : XR.add a b ≠ .nan) (hb : XR.add a' b' ≠ .nan) :
    XR.lt (XR.add a' b') (XR.add a b) = false := by
  cases a <;> cases a' <;> cases b <;> cases b' <;> simp_all [XR.lt, XR.add]
  exact add_le_add h1 h2

theorem Fpu.round_mono {A : Fpu K} (hA : A.Lawful) {x y : XR K} (h : XR.lt y x = false) :
    XR.lt (A.round y) (A.round x) = false := by
  have key : ∀ a, A.rnd a ≠ .nan := hA.notNan
  cases x with
  | nan => exact XR.lt_nan _
  | pinf => 
    cases y <;> simp_all [XR.lt, Fpu.round]
  | ninf =>
    cases y with
    | fin b => simp only [Fpu.round]; cases A.rnd b <;> rfl
    | _ => rfl
  | fin a =>
    cases y with
    | nan => rfl
    | pinf => simp only [Fpu.round]; cases A.rnd a <;> rfl
    | ninf => simp [XR.lt] at h
    | fin b => exact hA.mono (by simpa [XR.lt] using h)

theorem Fpu.of_round {A : Fpu K} {x : XR K} (h : A.round x ≠ .nan) : x ≠ .nan := by
  rintro rfl
  exact h rfl

theorem XR.of_add {x y : XR K} (h : XR.add x y ≠ .nan) : x ≠ .nan ∧ y ≠ .nan := by
  cases x <;> cases y <;> simp_all [XR.add]

/-- A sum in any order of addition grows with the summands. -/
theorem treeSumX_mono {A : Fpu K} (hA : A.Lawful) {b c : Costs n K}
    (h : ∀ i, XR.lt (c i) (b i) = false) : ∀ t : SumTree n, treeSumX A b t ≠ .nan →
      treeSumX A c t ≠ .nan → XR.lt (treeSumX A c t) (treeSumX A b t) = false
  | .zero, _, _ => XR.lt_irrefl _
  | .leaf i, _, _ => h i
  | .node u v, hb, hc => by
      rw [treeSumX] at hb hc ⊢
      rw [treeSumX]
      have hb1 := Fpu.of_round hb
      have hc1 := Fpu.of_round hc
      exact Fpu.round_mono hA (XR.add_mono
        (treeSumX_mono hA h u (XR.of_add hb1).1 (XR.of_add hc1).1)
        (treeSumX_mono hA h v (XR.of_add hb1).2 (XR.of_add hc1).2) hb1 hc1)

theorem XR.div_mono {x y : XR K} {k : K} (hk : 0 < k) (h : XR.lt y x = false) :
    XR.lt (XR.div y (.fin k)) (XR.div x (.fin k)) = false := by
  cases x <;> cases y <;> simp_all [XR.lt, XR.div, hk.le, hk.ne']
  exact div_le_div_of_nonneg_right h hk.le

theorem XR.of_div {x y : XR K} (h : XR.div x y ≠ .nan) : x ≠ .nan := by
  rintro rfl
  exact h rfl

theorem treeMeanX_mono {A : Fpu K} (hA : A.Lawful) (t : SumTree n) {b c : Costs n K}
    (h : ∀ i, XR.lt (c i) (b i) = false) :
    XR.lt (treeMeanX A t c) (treeMeanX A t b) = false := by
  by_cases hb : treeMeanX A t b = .nan
  · rw [hb]; exact XR.lt_nan _
  by_cases hc : treeMeanX A t c = .nan
  · rw [hc]; cases treeMeanX A t b <;> rfl
  rcases Nat.eq_zero_or_pos n with rfl | hn
  · have : c = b := funext fun i => i.elim0
    rw [this]; exact XR.lt_irrefl _
  · exact Fpu.round_mono hA (XR.div_mono (by exact_mod_cast hn)
      (treeSumX_mono hA h t (XR.of_div (Fpu.of_round hb)) (XR.of_div (Fpu.of_round hc))))

/-- **C128** (never increases).  On a machine that rounds monotonically, may overflow and adds in any
fixed order: for every objective, whatever it returns, no entry a call appends to
`mean_pbest_history` is larger than an earlier one. -/
theorem C128_never_increases (A : Arith n d K) (P : Fpu K) (hP : P.Lawful) (t : SumTree n)
    (hA : A.mean = treeMeanX P t) (cfg : Config n d K)
    (ev : Nat → Mat n d K → Except Err (Costs n K)) (iters : Nat) (nproc : Option Nat)
    (env : Nat → Draw n d K) (s : Opt n d K) :
    ∃ M, (optimizeR A cfg ev iters nproc env s).1.meanPbestHistory = s.meanPbestHistory ++ M ∧
      M.Pairwise fun a b => XR.lt a b = false := by
  obtain ⟨M, E, h1, -, h2, h3⟩ := C128_entries A cfg ev iters nproc env s
  refine ⟨M, h1, List.pairwise_iff_getElem.2 fun k l hk hl hkl => ?_⟩
  obtain ⟨b, hb, eb⟩ := h3 k hk
  obtain ⟨c, hc, ec⟩ := h3 l hl
  rw [eb, ec, hA]
  refine treeMeanX_mono hP t fun i => ?_
  rcases (hb i).2.1 with h | h
  · rw [h]; cases c i <;> rfl
  · refine (hc i).2.2 _ ?_
    rw [List.mem_map] at h ⊢
    obtain ⟨e, he, h⟩ := h
    refine ⟨e, ?_, h⟩
    exact (List.take_subset_take_left E (by omega : k + 1 ≤ l + 1)) he

end

/-! ## Compared with the best cost -/

section
variable {n d : Nat} [Transc ℚ]

/-- The objective only returns integers of absolute value at most `2^53 / n`. -/
def SmallIntegers (ev : Nat → Mat n d ℚ → Except Err (Costs n ℚ)) : Prop :=
  ∀ k x c, ev k x = .ok c → ∀ i, ∃ z : ℤ, c i = XR.fin (z : ℚ) ∧ n * |z| ≤ 2 ^ 53

theorem treeSumX_int (f : Fin n → ℤ) (B : ℕ) (hB : ∀ i, |f i| ≤ B) :
    ∀ t : SumTree n, t.leaves.length * B ≤ 2 ^ 53 →
      treeSumX fpu64 (fun i => XR.fin (f i : ℚ)) t = .fin (((t.leaves.map f).sum : ℤ) : ℚ) ∧
        |(t.leaves.map f).sum| ≤ t.leaves.length * B
  | .zero, _ => by simp [treeSumX, SumTree.leaves]
  | .leaf i, _ => by simpa [treeSumX, SumTree.leaves] using hB i
  | .node u v, h => by
      simp only [SumTree.leaves, List.length_append] at h ⊢
      rw [Nat.add_mul] at h
      obtain ⟨hu1, hu2⟩ := treeSumX_int f B hB u (by omega)
      obtain ⟨hv1, hv2⟩ := treeSumX_int f B hB v (by omega)
      have hs : |(u.leaves.map f).sum + (v.leaves.map f).sum| ≤
          (u.leaves.length + v.leaves.length) * B := by
        refine (abs_add_le _ _).trans ?_
        rw [add_mul]
        exact add_le_add hu2 hv2
      have h53 : |(u.leaves.map f).sum + (v.leaves.map f).sum| ≤ 2 ^ 53 := by
        refine hs.trans ?_
        rw [add_mul]
        exact_mod_cast h
      refine ⟨?_, by simpa using hs⟩
      rw [treeSumX, hu1, hv1, Fpu.add_fin]
      have e : ((((u.leaves.map f).sum : ℤ) : ℚ) + (((v.leaves.map f).sum : ℤ) : ℚ)) =
          (((u.leaves.map f).sum + (v.leaves.map f).sum : ℤ) : ℚ) := by push_cast; rfl
      rw [e]
      have e2 := Fl.f64_int h53
      rw [fpu64_fin, e2]
      · simp
      · rw [e2]
        have : |(((u.leaves.map f).sum + (v.leaves.map f).sum : ℤ) : ℚ)| ≤ 2 ^ 53 := by
          exact_mod_cast h53
        refine lt_of_le_of_lt this ?_
        exact pow_lt_pow_right₀ (by norm_num) (by norm_num)

theorem treeMeanX_ge (hn : 0 < n) {t : SumTree n} (ht : t.leaves.Perm (List.finRange n))
    {f : Fin n → ℤ} (hf : ∀ i, n * |f i| ≤ 2 ^ 53) {i₀ : Fin n} (hmin : ∀ i, f i₀ ≤ f i) :
    XR.lt (treeMeanX fpu64 t fun i => XR.fin (f i : ℚ)) (.fin (f i₀ : ℚ)) = false := by
  have hlen : t.leaves.length = n := by rw [ht.length_eq, List.length_finRange]
  have hB : ∀ i, |f i| ≤ ((2 ^ 53 / n : ℕ) : ℤ) := by
    intro i
    have h := hf i
    rw [Int.abs_eq_natAbs] at h ⊢
    have h' : n * (f i).natAbs ≤ 2 ^ 53 := by exact_mod_cast h
    have : (f i).natAbs ≤ 2 ^ 53 / n := (Nat.le_div_iff_mul_le hn).2 (by rw [mul_comm]; exact h')
    exact_mod_cast this
  have hs := (treeSumX_int f (2 ^ 53 / n) hB t (by
    rw [hlen]; exact Nat.mul_div_le _ _)).1
  have hsum : (t.leaves.map f).sum = ((List.finRange n).map f).sum := (ht.map f).sum_eq
  rw [hsum] at hs
  have hn' : (0 : ℚ) < n := by exact_mod_cast hn
  have hge : (n : ℤ) * f i₀ ≤ ((List.finRange n).map f).sum := by
    have h : ((List.finRange n).map fun _ => f i₀).sum ≤ ((List.finRange n).map f).sum :=
      List.sum_le_sum fun i _ => hmin i
    simpa using h
  have hdiv : (f i₀ : ℚ) ≤ (((List.finRange n).map f).sum : ℤ) / (n : ℚ) := by
    rw [le_div_iff₀ hn', mul_comm]
    exact_mod_cast hge
  have h53 : |f i₀| ≤ 2 ^ 53 := by
    refine le_trans ?_ (hf i₀)
    have : (1 : ℤ) ≤ n := by exact_mod_cast hn
    nlinarith [abs_nonneg (f i₀)]
  have e2 := Fl.f64_int h53
  have e3 : fpu64.rnd (f i₀ : ℚ) = .fin (f i₀ : ℚ) := by
    rw [fpu64_fin, e2]
    rw [e2]
    have : |(f i₀ : ℚ)| ≤ 2 ^ 53 := by exact_mod_cast h53
    exact lt_of_le_of_lt this (pow_lt_pow_right₀ (by norm_num) (by norm_num))
  have e4 : treeMeanX fpu64 t (fun i => XR.fin (f i : ℚ)) =
      fpu64.rnd ((((List.finRange n).map f).sum : ℤ) / (n : ℚ)) := by
    rw [treeMeanX, hs]
    simp [Fpu.div, XR.div, hn'.ne', Fpu.round]
  rw [e4, ← e3]
  exact fpu64_lawful.mono hdiv

/-- **C128** (integer costs).  In float64, with the Star topology: if the objective of the call
returns integers of absolute value at most `2^53 / n`, no entry the call appends to
`mean_pbest_history` is below the entry of `cost_history` of the same iteration, whatever order
NumPy adds in and whatever was run before. -/
theorem C128_integers (hn : 0 < n) (A : Arith n d ℚ) (t : SumTree n)
    (ht : t.leaves.Perm (List.finRange n)) (hA : A.mean = treeMeanX fpu64 t) (cfg : Config n d ℚ)
    (hk : cfg.kind.isStar) (ev : Nat → Mat n d ℚ → Except Err (Costs n ℚ))
    (hev : SmallIntegers ev) (iters : Nat) (nproc : Option Nat) (env : Nat → Draw n d ℚ)
    (s : Opt n d ℚ) (hs : ReachR A cfg s) :
    ∃ M, (optimizeR A cfg ev iters nproc env s).1.meanPbestHistory = s.meanPbestHistory ++ M ∧
      ∀ (k : Nat) (_ : k < M.length), ∃ c,
        (optimizeR A cfg ev iters nproc env s).1.costHistory[s.costHistory.length + k]? = some c ∧
          XR.lt M[k] c = false := by
  obtain ⟨M, E, h1, h2, h3, h4⟩ := C128_entries A cfg ev iters nproc env s
  refine ⟨M, h1, fun k hkM => ?_⟩
  have hp : nproc ≠ some 0 := by
    intro hp
    have : (optimizeR A cfg ev iters nproc env s).1.evals = s.evals := by simp [optimizeR, hp]
    rw [this] at h2
    have : E = [] := by simpa using h2
    rw [this] at h3
    simp at h3
    rw [h3] at hkM
    simp at hkM
  obtain ⟨E', g1, g2, -⟩ := C68_personal_best A cfg ev env iters nproc hp s
  have hE : E' = E := by rw [h2] at g1; exact (List.append_cancel_left g1).symm
  rw [hE] at g2
  have hs' : ReachR A cfg (optimizeR A cfg ev iters nproc env s).1 :=
    RunsR.optimized s ev iters nproc env hs fun _ => trivial
  obtain ⟨l0, -⟩ := C68_cost_history hn A cfg hk s hs
  obtain ⟨l1, hh⟩ := C68_cost_history hn A cfg hk _ hs'
  generalize (optimizeR A cfg ev iters nproc env s).1 = s' at *
  have hlen : s.costHistory.length + k < s'.costHistory.length := by
    rw [l0, l1, h2, List.length_append]; omega
  have hmin := hh _ hlen
  refine ⟨s'.costHistory[s.costHistory.length + k], List.getElem?_eq_getElem hlen, ?_⟩
  generalize s'.costHistory[s.costHistory.length + k] = c at hmin ⊢
  have htake : s'.evals.take (s.costHistory.length + k + 1) = s.evals ++ E.take (k + 1) := by
    rw [h2, List.take_append, List.take_of_length_le (by omega)]
    congr 2
    omega
  rw [htake] at hmin
  obtain ⟨b, hb, hm⟩ := h4 k hkM
  rw [hm, hA]
  -- the personal bests are integers
  have hint : ∀ e ∈ E, ∀ i, ∃ z : ℤ, e.2 i = XR.fin (z : ℚ) ∧ n * |z| ≤ 2 ^ 53 := by
    intro e he i
    obtain ⟨j, hj, rfl⟩ := List.getElem_of_mem he
    exact hev _ _ _ (g2 j hj) i
  have hE0 : E ≠ [] := by
    rintro rfl
    simp at h3
    rw [h3] at hkM
    simp at hkM
  have hbz : ∀ i, ∃ z : ℤ, b i = XR.fin (z : ℚ) ∧ n * |z| ≤ 2 ^ 53 := by
    intro i
    rcases (hb i).2.1 with h | h
    · obtain ⟨e, E'', rfl⟩ := List.exists_cons_of_ne_nil hE0
      obtain ⟨z, hz, -⟩ := hint e (by simp) i
      have := (hb i).2.2 (e.2 i) (by simp)
      rw [h, hz] at this
      simp [XR.lt] at this
    · rw [List.mem_map] at h
      obtain ⟨e, he, h⟩ := h
      rw [← h]
      exact hint e (List.mem_of_mem_take he) i
  choose f hf1 hf2 using hbz
  have hcb : ∀ i, XR.lt (b i) c = false := by
    intro i
    rcases (hb i).2.1 with h | h
    · rw [hf1] at h; cases h
    · refine hmin.2.2 _ ?_
      rw [List.mem_map] at h
      obtain ⟨e, he, h⟩ := h
      rw [← h, allCosts, List.mem_flatMap]
      exact ⟨e, List.mem_append_right _ he, List.mem_map.2 ⟨i, List.mem_finRange i, rfl⟩⟩
  have : Nonempty (Fin n) := ⟨⟨0, hn⟩⟩
  obtain ⟨i₀, hi₀⟩ := Finite.exists_min f
  have hbf : b = fun i => XR.fin (f i : ℚ) := funext hf1
  have := treeMeanX_ge hn ht hf2 hi₀
  rw [← hbf, ← hf1 i₀] at this
  refine XR.not_lt_trans ?_ this (hcb i₀)
  rw [hf1]; simp

end

namespace Ex

/-- Adding three numbers from left to right, starting with 0. -/
def addThree : SumTree 3 := .node (.node (.node .zero (.leaf 0)) (.leaf 1)) (.leaf 2)

/-- Float64 with `np.mean` of three numbers. -/
def meanArith : Arith 3 1 ℚ := { fArith 3 1 with mean := treeMeanX fpu64 addThree }

/-- Three particles at the origin. -/
def meanStart : Opt 3 1 ℚ where
  swarm := mkSwarm (fun _ _ => 0) (fun _ _ => 0) (gcfg 3 1).options

/-- An objective with integer costs, smaller in odd iterations. -/
def intCosts : Nat → Mat 3 1 ℚ → Except Err (Costs 3 ℚ) := fun k _ =>
  .ok fun i => .fin ((4 - 2 * ((k % 2 : ℕ) : ℤ) + ((i : ℕ) : ℤ) : ℤ) : ℚ)

theorem intCosts_small : SmallIntegers intCosts := by
  intro k x c h i
  simp only [intCosts, Except.ok.injEq] at h
  rw [← h]
  refine ⟨_, rfl, ?_⟩
  have h1 := Nat.mod_lt k (by norm_num : 2 > 0)
  have h2 := i.2
  have : |4 - 2 * ((k % 2 : ℕ) : ℤ) + ((i : ℕ) : ℤ)| ≤ 100 := by
    rw [abs_le]; omega
  omega

end Ex

/-- **C128** (below the best cost).  In float64 the mean can be smaller than every number it is the
mean of: with three particles and the constant objective `0.7`, `mean_pbest_history` is below
`cost_history`. -/
theorem C128_below_best :
    ∃ a, (optimizeR Ex.meanArith (Ex.gcfg 3 1) (fun _ _ => .ok fun _ => .fin (f64 0.7)) 1 none
        (fun _ => Ex.draw 3 1) Ex.meanStart).1.meanPbestHistory = [.fin a] ∧
      (optimizeR Ex.meanArith (Ex.gcfg 3 1) (fun _ _ => .ok fun _ => .fin (f64 0.7)) 1 none
        (fun _ => Ex.draw 3 1) Ex.meanStart).1.costHistory = [.fin (f64 0.7)] ∧
      a < f64 0.7 :=
  ⟨f64 (f64 (f64 (f64 0.7 + f64 0.7) + f64 0.7) / 3), by decide +kernel, by decide +kernel,
    by decide +kernel⟩

/-- Non-vacuity: a call with integer costs that change, in which the mean differs from the best
cost; the order of addition has every particle once, float64 is lawful and the start is reachable. -/
example : Ex.addThree.leaves.Perm (List.finRange 3) ∧ fpu64.Lawful ∧ SmallIntegers Ex.intCosts ∧
    ReachR Ex.meanArith (Ex.gcfg 3 1) Ex.meanStart ∧ (Ex.gcfg 3 1).kind.isStar ∧
    (optimizeR Ex.meanArith (Ex.gcfg 3 1) Ex.intCosts 2 none (fun _ => Ex.draw 3 1)
      Ex.meanStart).1.meanPbestHistory = [.fin 5, .fin 3] ∧
    (optimizeR Ex.meanArith (Ex.gcfg 3 1) Ex.intCosts 2 none (fun _ => Ex.draw 3 1)
      Ex.meanStart).1.costHistory = [.fin 4, .fin 2] :=
  ⟨by decide, fpu64_lawful, Ex.intCosts_small, RunsR.created _ _ _ _ _ _ trivial trivial, trivial,
    by decide +kernel, by decide +kernel⟩

end PySwarms
