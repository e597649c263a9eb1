import Verif.Lemmas.Star
import Verif.Lemmas.Runs
import Verif.Lemmas.Gbest
import Verif.Examples
import Mathlib.Algebra.Order.BigOperators.Group.List
import Mathlib.Algebra.BigOperators.Fin
import Mathlib.Tactic.Positivity

/-! # C52: the mean of the personal bests -/

set_option linter.unusedSectionVars false

namespace PySwarms

section
variable {n : Nat} {K : Type} [Field K] [LinearOrder K] [IsStrictOrderedRing K]

theorem foldl_add_fin (f : Fin n → K) (l : List (Fin n)) (a : K) :
    l.foldl (fun acc i => XR.add acc (XR.fin (f i))) (XR.fin a) = XR.fin (a + (l.map f).sum) := by
  induction l generalizing a with
  | nil => simp
  | cons x l ih =>
    rw [List.foldl_cons, show XR.add (XR.fin a) (XR.fin (f x)) = XR.fin (a + f x) from rfl, ih]
    simp [add_assoc]

/-- The mean of finite costs is the arithmetic mean. -/
theorem npMean_fin (hn : 0 < n) (f : Fin n → K) :
    npMean (fun i => XR.fin (f i)) = XR.fin (((List.finRange n).map f).sum / n) := by
  unfold npMean
  rw [if_neg (by omega), foldl_add_fin]
  simp [XR.divNat]

theorem mean_mono (hn : 0 < n) {f g : Fin n → K} (h : ∀ i, f i ≤ g i) :
    ((List.finRange n).map f).sum / n ≤ ((List.finRange n).map g).sum / (n : K) := by
  have hn' : (0 : K) < n := by exact_mod_cast hn
  refine div_le_div_of_nonneg_right ?_ hn'.le
  exact List.sum_le_sum fun i _ => h i

theorem le_mean (hn : 0 < n) {f : Fin n → K} {b : K} (h : ∀ i, b ≤ f i) :
    b ≤ ((List.finRange n).map f).sum / (n : K) := by
  have hn' : (0 : K) < n := by exact_mod_cast hn
  have := mean_mono hn h
  refine le_trans (le_of_eq ?_) this
  simp only [List.map_const', List.sum_replicate, List.length_finRange, nsmul_eq_mul]
  field_simp

end

variable {n d : Nat} {K : Type} [Field K] [LinearOrder K] [IsStrictOrderedRing K] [Transc K]
  [FloorRing K]

/-- The objective only returns finite costs. -/
def FiniteObjective (ev : Nat → Mat n d K → Except Err (Costs n K)) : Prop :=
  ∀ k x c, ev k x = .ok c → ∀ i, ∃ a, c i = XR.fin a

/-- Loop invariant: `M` and `C` are the entries appended so far. -/
def MeanInv (star : Prop) (s0 s : Opt n d K) (M C : List (XR K)) : Prop :=
  s.meanPbestHistory = s0.meanPbestHistory ++ M ∧ s.costHistory = s0.costHistory ++ C ∧
    M.Pairwise (fun a b => XR.lt a b = false) ∧ (∀ a ∈ M, ∃ x, a = XR.fin x) ∧
    List.Forall₂ (fun m c => star → XR.lt m c = false) M C ∧
    (M = [] ∧ (∀ i, s.swarm.pbestCost i = XR.pinf) ∨
      ∃ f : Fin n → K, s.swarm.pbestCost = (fun i => XR.fin (f i)) ∧
        ∀ m ∈ M, XR.lt m (npMean s.swarm.pbestCost) = false)

/-- The appended entries, at every exit of the call. -/
def MeanSpec (star : Prop) (s0 s : Opt n d K) : Prop :=
  ∃ M C, s.meanPbestHistory = s0.meanPbestHistory ++ M ∧ s.costHistory = s0.costHistory ++ C ∧
    M.Pairwise (fun a b => XR.lt a b = false) ∧ (∀ a ∈ M, ∃ x, a = XR.fin x) ∧
    List.Forall₂ (fun m c => star → XR.lt m c = false) M C

theorem recordEval_fin {c : Costs n K} (hc : ∀ i, ∃ a, c i = XR.fin a) {s : Opt n d K}
    (h : (∀ i, s.swarm.pbestCost i = XR.pinf) ∨ ∃ f : Fin n → K, s.swarm.pbestCost =
      fun i => XR.fin (f i)) :
    ∃ g : Fin n → K, (recordEval c s).swarm.pbestCost = (fun i => XR.fin (g i)) ∧
      ∀ f : Fin n → K, s.swarm.pbestCost = (fun i => XR.fin (f i)) → ∀ i, g i ≤ f i := by
  have hx : ∀ i, ∃ a, (recordEval c s).swarm.pbestCost i = XR.fin a ∧
      ∀ b, s.swarm.pbestCost i = XR.fin b → a ≤ b := by
    intro i
    obtain ⟨a, ha⟩ := hc i
    rw [recordEval_pbestCost, ha]
    rcases h with h | ⟨f, hf⟩
    · rw [h i]
      exact ⟨a, by simp [XR.lt], by simp⟩
    · rw [hf]
      by_cases hlt : a < f i
      · exact ⟨a, by simp [XR.lt, hlt], fun b hb => by cases hb; exact hlt.le⟩
      · exact ⟨f i, by simp [XR.lt, hlt], fun b hb => by cases hb; exact le_refl _⟩
  choose g hg1 hg2 using hx
  exact ⟨g, funext hg1, fun f hf i => hg2 i (f i) (by rw [hf])⟩

theorem meanInv_record (hn : 0 < n) (cfg : Config n d K) (o : Oracle n d K)
    {s0 s : Opt n d K} {M C : List (XR K)} (h : MeanInv cfg.kind.isStar s0 s M C) {c : Costs n K}
    (hc : ∀ i, ∃ a, c i = XR.fin a) {t : TopState n} {g : GBest n d K}
    (hg : callGbest cfg o (recordEval c s).top (recordEval c s).swarm = (t, .ok g)) :
    ∃ M' C', MeanInv cfg.kind.isStar s0 (recordBest t g (recordEval c s)) M' C' := by
  obtain ⟨h1, h2, h3, h4, h5, h6⟩ := h
  obtain ⟨f, hf, hle⟩ := recordEval_fin (c := c) hc (s := s) (by
    rcases h6 with h | ⟨f, hf, -⟩
    · exact Or.inl h.2
    · exact Or.inr ⟨f, hf⟩)
  have hmean : npMean (recordEval c s).swarm.pbestCost =
      XR.fin (((List.finRange n).map f).sum / n) := by rw [hf, npMean_fin hn]
  have hlt : ∀ m ∈ M, XR.lt m (npMean (recordEval c s).swarm.pbestCost) = false := by
    intro m hm
    rcases h6 with h | ⟨f', hf', hm'⟩
    · rw [h.1] at hm; cases hm
    · have h7 := hm' m hm
      rw [hf', npMean_fin hn] at h7
      obtain ⟨x, rfl⟩ := h4 m hm
      rw [hmean]
      have h8 := mean_mono hn (hle f' hf')
      simp only [XR.lt, decide_eq_false_iff_not, not_lt] at h7 ⊢
      exact le_trans h8 h7
  refine ⟨M ++ [npMean (recordEval c s).swarm.pbestCost], C ++ [g.2.getD XR.pinf],
    ?_, ?_, ?_, ?_, ?_, ?_⟩
  · simp [recordBest, Opt.populateHistory, ← List.append_assoc, ← h1, recordEval]
  · simp [recordBest, Opt.populateHistory, ← List.append_assoc, ← h2, recordEval,
      Swarm.bestCostVal]
  · rw [List.pairwise_append]
    refine ⟨h3, by simp, ?_⟩
    intro a ha b hb
    rw [List.mem_singleton] at hb
    rw [hb]
    exact hlt a ha
  · intro a ha
    rw [List.mem_append, List.mem_singleton] at ha
    rcases ha with ha | rfl
    · exact h4 a ha
    · exact ⟨_, hmean⟩
  · refine List.rel_append h5 (List.Forall₂.cons ?_ .nil)
    intro hstar
    rw [callGbest_star cfg hstar] at hg
    obtain ⟨t', k, -, hmin, -, hcase⟩ := starGbest_spec hn (recordEval c s).top
      (recordEval c s).swarm (by intro i; rw [hf]; simp)
    have hmin' : ∀ i, f k ≤ f i := by
      intro i
      have := hmin i
      rw [hf] at this
      simpa [XR.lt] using this
    have hk : XR.lt (npMean (recordEval c s).swarm.pbestCost)
        ((recordEval c s).swarm.pbestCost k) = false := by
      rw [hmean, hf]
      simpa [XR.lt] using le_mean hn hmin'
    rcases hcase with ⟨-, heq⟩ | ⟨hb, heq⟩
    · rw [heq] at hg
      cases hg
      exact hk
    · rw [heq] at hg
      cases hg
      refine XR.not_lt_trans ?_ hk hb
      rw [hf]; simp
  · refine Or.inr ⟨f, hf, ?_⟩
    intro m hm
    rw [List.mem_append, List.mem_singleton] at hm
    rcases hm with hm | rfl
    · exact hlt m hm
    · exact XR.lt_irrefl _

theorem meanInv_move (cfg : Config n d K) (r : Draw n d K) (iters i : Nat) {star : Prop}
    {s0 s : Opt n d K} {M C : List (XR K)} (h : MeanInv star s0 s M C) :
    MeanInv star s0 (moveSwarm cfg r iters i s).1 M C := by
  have hf := moveSwarm_frame cfg r iters i s
  obtain ⟨-, f1, -, -, -, -, f2, f3, -⟩ := hf
  unfold MeanInv at h ⊢
  rw [f1, f2, f3]
  exact h

theorem loop_mean (hn : 0 < n) (cfg : Config n d K)
    (ev : Nat → Mat n d K → Except Err (Costs n K)) (hev : FiniteObjective ev)
    (env : Nat → Draw n d K) (iters : Nat) (s0 : Opt n d K) (m i : Nat) (q : List Bool)
    (s : Opt n d K) (h : ∃ M C, MeanInv cfg.kind.isStar s0 s M C) :
    MeanSpec cfg.kind.isStar s0 (loop cfg ev env iters m i q s).1 := by
  have weaken : ∀ {s : Opt n d K}, (∃ M C, MeanInv cfg.kind.isStar s0 s M C) →
      MeanSpec cfg.kind.isStar s0 s := by
    rintro s ⟨M, C, h1, h2, h3, h4, h5, -⟩
    exact ⟨M, C, h1, h2, h3, h4, h5⟩
  induction m generalizing i q s with
  | zero => exact weaken h
  | succ m ih =>
    have hc := iterate_cases cfg (ev i) (env i) iters i q s
    rw [loop]
    generalize iterate cfg (ev i) (env i) iters i q s = o at hc ⊢
    obtain ⟨s1, e | f⟩ := o
    · simp only at hc ⊢
      cases hc with
      | evalError e h' => exact weaken h
      | gbestError c t e h' hg =>
        obtain ⟨M, C, h1, h2, h3, h4, h5, -⟩ := h
        exact ⟨M, C, h1, h2, h3, h4, h5⟩
      | moveError c t g _ e h' hg hns hm =>
        obtain ⟨M, C, h⟩ := h
        obtain ⟨M', C', h2⟩ := meanInv_record hn cfg (env i).oracle h (hev _ _ _ h') hg
        have h3 := meanInv_move cfg (env i) iters i h2
        rw [hm] at h3
        exact weaken ⟨M', C', h3⟩
    · simp only at hc
      cases hc with
      | stop c t g h' hg hi hq =>
        obtain ⟨M, C, h⟩ := h
        exact weaken (meanInv_record hn cfg (env i).oracle h (hev _ _ _ h') hg)
      | moved c t g _ h' hg hns hm =>
        obtain ⟨M, C, h⟩ := h
        obtain ⟨M', C', h2⟩ := meanInv_record hn cfg (env i).oracle h (hev _ _ _ h') hg
        have h3 := meanInv_move cfg (env i) iters i h2
        rw [hm] at h3
        exact ih _ _ _ ⟨M', C', h3⟩

/-- C52.  For an objective with finite costs, the values `M` that a call of `optimize` appends to
`mean_pbest_history` (also when it ends with an exception) are finite, none is larger than an
earlier one, and with a Star topology each is at least the value appended to `cost_history` in the
same iteration – whatever the object has been through before the call. -/
theorem C52_mean_pbest (hn : 0 < n) (cfg : Config n d K)
    (ev : Nat → Mat n d K → Except Err (Costs n K)) (hev : FiniteObjective ev)
    (iters : Nat) (nproc : Option Nat) (env : Nat → Draw n d K) (s : Opt n d K) :
    ∃ M C, (optimize cfg ev iters nproc env s).1.meanPbestHistory = s.meanPbestHistory ++ M ∧
      (optimize cfg ev iters nproc env s).1.costHistory = s.costHistory ++ C ∧
      M.Pairwise (fun a b => XR.lt a b = false) ∧ (∀ a ∈ M, ∃ x, a = XR.fin x) ∧
      M.length = C.length ∧
      (cfg.kind.isStar → List.Forall₂ (fun m c => XR.lt m c = false) M C) := by
  have main : MeanSpec cfg.kind.isStar s (optimize cfg ev iters nproc env s).1 := by
    have hl := loop_mean hn cfg ev hev env iters s iters 0 [] (startState cfg nproc s)
      ⟨[], [], by simp [startState, prepare], by simp [startState, prepare], by simp, by simp, .nil,
        Or.inl ⟨rfl, fun _ => rfl⟩⟩
    have hc := optimize_cases cfg ev iters nproc env s
    generalize (optimize cfg ev iters nproc env s).1 = s' at hc ⊢
    generalize (optimize cfg ev iters nproc env s).2 = o at hc
    cases hc with
    | badPool h => exact ⟨[], [], by simp, by simp, by simp, by simp, .nil⟩
    | loopError s1 e hp h => rw [h] at hl; exact hl
    | finishError s1 e hp h hf => rw [h] at hl; exact hl
    | done s1 r hp h hf => rw [h] at hl; exact hl
  obtain ⟨M, C, h1, h2, h3, h4, h5⟩ := main
  exact ⟨M, C, h1, h2, h3, h4, h5.length_eq, fun hs => h5.imp fun _ _ h => h hs⟩

/-- What is recorded: the entry of an iteration is the arithmetic mean of the personal best costs
of the moment.  (The state after a call holds the personal bests of the last iteration.) -/
theorem C52_last_is_mean (hn : 0 < n) (cfg : Config n d K)
    (ev : Nat → Mat n d K → Except Err (Costs n K)) (hev : FiniteObjective ev)
    (iters : Nat) (hit : 1 ≤ iters) (nproc : Option Nat) (env : Nat → Draw n d K) (s : Opt n d K)
    {v : XR K × Vec d K} (hok : (optimize cfg ev iters nproc env s).2 = .ok v) :
    ∃ f : Fin n → K,
      (optimize cfg ev iters nproc env s).1.swarm.pbestCost = (fun i => XR.fin (f i)) ∧
      (optimize cfg ev iters nproc env s).1.meanPbestHistory.getLast? =
        some (XR.fin ((∑ i, f i) / n)) := by
  -- invariant of the states between iterations
  let J : Nat → Opt n d K → Prop := fun m s =>
    ((∀ i, s.swarm.pbestCost i = XR.pinf) ∧ 0 < m) ∨ ∃ f : Fin n → K,
      s.swarm.pbestCost = (fun i => XR.fin (f i)) ∧
      s.meanPbestHistory.getLast? = some (XR.fin ((∑ i, f i) / n))
  have hrec : ∀ {c : Costs n K} {s : Opt n d K} {m} (t : TopState n) (g : GBest n d K), J m s →
      (∀ i, ∃ a, c i = XR.fin a) → ∀ m', J m' (recordBest t g (recordEval c s)) := by
    intro c s m t g hJ hc m'
    obtain ⟨f, hf, -⟩ := recordEval_fin (c := c) hc (s := s) (by
      rcases hJ with h | ⟨f, hf, -⟩
      · exact Or.inl h.1
      · exact Or.inr ⟨f, hf⟩)
    refine Or.inr ⟨f, hf, ?_⟩
    have : npMean (recordEval c s).swarm.pbestCost = XR.fin ((∑ i, f i) / n) := by
      rw [hf, npMean_fin hn, Fin.sum_univ_def]
    simp only [recordBest, Opt.populateHistory, List.getLast?_append, List.getLast?_singleton,
      Option.some_or]
    rw [← this]
  have hloop : ∀ m i q (s s' : Opt n d K), J m s →
      loop cfg ev env iters m i q s = (s', .ok ()) → J 0 s' := by
    intro m
    induction m with
    | zero =>
      intro i q s s' hJ h
      rw [loop] at h
      cases h
      exact hJ
    | succ m ih =>
      intro i q s s' hJ h
      have hc := iterate_cases cfg (ev i) (env i) iters i q s
      rw [loop] at h
      generalize iterate cfg (ev i) (env i) iters i q s = o at hc h
      obtain ⟨s1, e | f⟩ := o
      · cases h
      · simp only at hc
        cases hc with
        | stop c t g h' hg hi hq =>
          cases h
          exact hrec t g hJ (hev _ _ _ h') 0
        | moved c t g _ h' hg hns hm =>
          refine ih _ _ _ _ ?_ h
          have h3 := hrec t g hJ (hev _ _ _ h') m
          have hf := moveSwarm_frame cfg (env i) iters i (recordBest t g (recordEval c s))
          rw [hm] at hf
          obtain ⟨-, f1, -, -, -, -, -, f2, -⟩ := hf
          simp only at f1 f2
          simp only [J] at h3 ⊢
          rw [f1, f2]
          exact h3
  have hc := optimize_cases cfg ev iters nproc env s
  generalize (optimize cfg ev iters nproc env s).1 = s' at hc ⊢
  rw [hok] at hc
  cases hc with
  | done s1 r hp h hf =>
    have := hloop iters 0 [] _ s1 (Or.inl ⟨fun _ => rfl, by omega⟩) h
    rcases this with h | h
    · exact absurd h.2 (by omega)
    · exact h

/-- Non-vacuity: a run of three iterations of the sphere function. -/
example : FiniteObjective (Ex.sphere 2 1) ∧ (Ex.gcfg 2 1).kind.isStar ∧
    (match construct (Ex.gcfg 2 1) (Ex.init 2 1) (Ex.init 2 1) with
    | .ok s => match optimize (Ex.gcfg 2 1) (Ex.sphere 2 1) 3 none (fun _ => Ex.draw 2 1) s with
      | (s', .ok _) => decide (s'.meanPbestHistory.length = 3 ∧
          s'.meanPbestHistory ≠ s'.costHistory)
      | _ => false
    | _ => false) = true := by
  refine ⟨?_, trivial, by decide +kernel⟩
  intro k x c h i
  simp only [Ex.sphere, Except.ok.injEq] at h
  rw [← h]
  exact ⟨_, rfl⟩

end PySwarms
