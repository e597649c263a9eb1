import Verif.Lemmas.Best
import Verif.Lemmas.Reach

/-! Invariants of the optimizers with Star topology. -/

set_option linter.unusedSectionVars false

namespace PySwarms

variable {n d : Nat} {K : Type} [Field K] [LinearOrder K]

theorem starGbest_spec (hn : 0 < n) (t : TopState n) (s : Swarm n d K)
    (hp : ∀ i, s.pbestCost i ≠ XR.nan) :
    ∃ t' k, npArgmin s.pbestCost = some k ∧ (∀ i, XR.lt (s.pbestCost i) (s.pbestCost k) = false) ∧
      (∀ i, i < k → XR.lt (s.pbestCost k) (s.pbestCost i) = true) ∧
      ((XR.lt (s.pbestCost k) s.bestCostVal = true ∧
          starGbest t s = (t', .ok (.single (s.pbestPos k), some (s.pbestCost k)))) ∨
       (XR.lt (s.pbestCost k) s.bestCostVal = false ∧
          starGbest t s = (t', .ok (s.bestPos, s.bestCost)))) := by
  obtain ⟨k, h1, h2, h3⟩ := npArgmin_spec s.pbestCost hn hp
  refine ⟨(starGbest t s).1, k, h1, h2, h3, ?_⟩
  unfold starGbest
  simp only [h1]
  by_cases hb : XR.lt (s.pbestCost k) s.bestCostVal = true
  · left; refine ⟨hb, ?_⟩; simp [hb]
  · right; refine ⟨by simpa using hb, ?_⟩; simp [hb]

theorem mem_allCosts (E : List (Mat n d K × Costs n K)) (x : XR K) :
    x ∈ allCosts E ↔ ∃ e ∈ E, ∃ i, e.2 i = x := by
  simp [allCosts, List.mem_flatMap]

theorem allCosts_append (E F : List (Mat n d K × Costs n K)) :
    allCosts (E ++ F) = allCosts E ++ allCosts F := by
  simp [allCosts]

theorem isMinOf_unique {a b : XR K} {l : List (XR K)} (ha : IsMinOf a l) (hb : IsMinOf b l) :
    a = b := by
  obtain ⟨a1, a2, a3⟩ := ha
  obtain ⟨b1, b2, b3⟩ := hb
  apply XR.eq_of_not_lt a1 b1
  · rcases a2 with rfl | a2
    · exact XR.not_pinf_lt _
    · exact b3 _ a2
  · rcases b2 with rfl | b2
    · exact XR.not_pinf_lt _
    · exact a3 _ b2

theorem isMinOf_antitone {a b : XR K} {l l' : List (XR K)} (ha : IsMinOf a l) (hb : IsMinOf b l')
    (h : ∀ x ∈ l, x ∈ l') : XR.lt a b = false := by
  rcases ha.2.1 with rfl | h1
  · exact XR.not_pinf_lt _
  · exact hb.2.2 _ (h _ h1)

/-- Facts about personal best costs valid for every optimizer class. -/
def PbFacts (s : Opt n d K) : Prop :=
  ∀ i, s.swarm.pbestCost i ≠ XR.nan ∧
    (s.swarm.pbestCost i = XR.pinf ∨ s.swarm.pbestCost i ∈ allCosts s.evals)

theorem pbFacts_recordEval {s : Opt n d K} (h : PbFacts s) (c : Costs n K) :
    PbFacts (recordEval c s) := by
  intro i
  rw [recordEval_pbestCost]
  have he : (recordEval c s).evals = s.evals ++ [(s.swarm.position, c)] := rfl
  rw [he, allCosts_append]
  by_cases hl : XR.lt (c i) (s.swarm.pbestCost i) = true
  · simp only [hl, if_true]
    refine ⟨XR.left_ne_nan hl, Or.inr ?_⟩
    apply List.mem_append_right
    rw [mem_allCosts]; exact ⟨_, List.mem_singleton_self _, i, rfl⟩
  · simp only [hl]
    refine ⟨(h i).1, ?_⟩
    rcases (h i).2 with h | h
    · left; exact h
    · right; exact List.mem_append_left _ h

theorem recordEval_not_better (c : Costs n K) (s : Opt n d K)
    (hp : ∀ i, s.swarm.pbestCost i ≠ XR.nan) (i : Fin n) :
    XR.lt (c i) ((recordEval c s).swarm.pbestCost i) = false := by
  rw [recordEval_pbestCost]
  by_cases hl : XR.lt (c i) (s.swarm.pbestCost i) = true
  · simp only [hl, if_true]; exact XR.lt_irrefl _
  · simp only [hl]; simpa using hl

structure StarInv (s : Opt n d K) : Prop where
  pb : PbFacts s
  best : IsMinOf s.swarm.bestCostVal (allCosts s.evals)
  some : ∀ c, s.swarm.bestCost = some c → XR.lt c XR.pinf = true
  len : s.costHistory.length = s.evals.length
  hist : ∀ (t : Nat) (h : t < s.costHistory.length),
    IsMinOf s.costHistory[t] (allCosts (s.evals.take (t + 1)))

theorem starInv_congr {s s' : Opt n d K} (h : StarInv s) (h1 : s'.evals = s.evals)
    (h2 : s'.swarm.pbestCost = s.swarm.pbestCost) (h3 : s'.swarm.bestCost = s.swarm.bestCost)
    (h4 : s'.costHistory = s.costHistory) : StarInv s' := by
  obtain ⟨a, b, c, l, e⟩ := h
  have hv : s'.swarm.bestCostVal = s.swarm.bestCostVal := by simp [Swarm.bestCostVal, h3]
  refine ⟨?_, by rw [hv, h1]; exact b, by rw [h3]; exact c, by rw [h4, h1]; exact l, ?_⟩
  · intro i; rw [h2, h1]; exact a i
  · intro t ht
    have : t < s.costHistory.length := by rw [← h4]; exact ht
    have := e t this
    simp only [h4, h1]; exact this

theorem starInv_init {r : InitDraw n d K} {sw : Swarm n d K} (t : TopState n)
    (a b : Option (Mat n d K)) (p : Nat)
    (hsw : sw.pbestCost = (fun _ => XR.pinf) ∧ sw.bestCost = none) :
    StarInv ({ swarm := sw, top := t, bhMem := a, vhMem := b, openPools := p } : Opt n d K) := by
  obtain ⟨h1, h2⟩ := hsw
  refine ⟨?_, ?_, ?_, rfl, ?_⟩
  · intro i; simp [h1]
  · simp [Swarm.bestCostVal, h2, IsMinOf, allCosts]
  · simp [h2]
  · intro t ht; simp at ht

theorem starInv_prep {s : Opt n d K} (h : StarInv s) :
    StarInv { s with swarm := { s.swarm with pbestCost := fun _ => XR.pinf } } :=
  ⟨fun i => by simp, h.best, h.some, h.len, h.hist⟩

/-- One evaluation followed by `Star.compute_gbest` and `_populate_history`. -/
theorem starInv_record (hn : 0 < n) {s : Opt n d K} (h : StarInv s) (c : Costs n K)
    {t t' : TopState n} {g : GBest n d K}
    (hg : starGbest t (recordEval c s).swarm = (t', .ok g)) :
    StarInv (recordBest t' g (recordEval c s)) := by
  have hpb := pbFacts_recordEval h.pb c
  have hnb := recordEval_not_better c s (fun i => (h.pb i).1)
  obtain ⟨t'', k, hk, hmin, _, hcase⟩ := starGbest_spec hn t (recordEval c s).swarm
    (fun i => (hpb i).1)
  have hev : (recordBest t' g (recordEval c s)).evals = s.evals ++ [(s.swarm.position, c)] := rfl
  have hev1 : (recordEval c s).evals = s.evals ++ [(s.swarm.position, c)] := rfl
  have hval : (recordEval c s).swarm.bestCostVal = s.swarm.bestCostVal := rfl
  -- the new best is the minimum of the extended log
  have hbest : IsMinOf (recordBest t' g (recordEval c s)).swarm.bestCostVal
      (allCosts (s.evals ++ [(s.swarm.position, c)])) := by
    have hc : ∀ x ∈ allCosts [(s.swarm.position, c)], ∃ i, x = c i := by
      intro x hx
      rw [mem_allCosts] at hx
      obtain ⟨e, he, i, hi⟩ := hx
      rw [List.mem_singleton] at he
      subst he
      exact ⟨i, hi.symm⟩
    rcases hcase with ⟨hlt, heq⟩ | ⟨hlt, heq⟩
    · rw [heq] at hg
      cases hg
      show IsMinOf ((recordEval c s).swarm.pbestCost k) _
      rw [hval] at hlt
      refine ⟨(hpb k).1, ?_, ?_⟩
      · right
        rcases (hpb k).2 with h1 | h1
        · rw [h1, XR.not_pinf_lt] at hlt; cases hlt
        · exact h1
      · intro x hx
        rw [allCosts_append, List.mem_append] at hx
        rcases hx with hx | hx
        · by_cases hxn : x = XR.nan
          · rw [hxn]; rfl
          · have := h.best.2.2 x hx
            exact XR.lt_asymm (XR.lt_of_lt_of_not_lt hlt hxn this)
        · obtain ⟨i, rfl⟩ := hc x hx
          exact XR.not_lt_trans (hpb i).1 (hnb i) (hmin i)
    · rw [heq] at hg
      cases hg
      show IsMinOf (recordEval c s).swarm.bestCostVal _
      rw [hval] at hlt ⊢
      refine ⟨h.best.1, ?_, ?_⟩
      · rcases h.best.2.1 with h1 | h1
        · left; exact h1
        · right; rw [allCosts_append]; exact List.mem_append_left _ h1
      · intro x hx
        rw [allCosts_append, List.mem_append] at hx
        rcases hx with hx | hx
        · exact h.best.2.2 x hx
        · obtain ⟨i, rfl⟩ := hc x hx
          exact XR.not_lt_trans (hpb k).1
            (XR.not_lt_trans (hpb i).1 (hnb i) (hmin i)) hlt
  have hlen : (recordBest t' g (recordEval c s)).costHistory
      = s.costHistory ++ [(recordBest t' g (recordEval c s)).swarm.bestCostVal] := rfl
  refine ⟨?_, ?_, ?_, ?_, ?_⟩
  · intro i; exact hpb i
  · rw [hev]; exact hbest
  · intro c' hc'
    rcases hcase with ⟨hlt, heq⟩ | ⟨hlt, heq⟩
    · rw [heq] at hg; cases hg
      have : some ((recordEval c s).swarm.pbestCost k) = some c' := hc'
      cases this
      rw [XR.lt_pinf_iff]
      refine ⟨(hpb k).1, ?_⟩
      intro h1
      rw [h1, XR.not_pinf_lt] at hlt; cases hlt
    · rw [heq] at hg; cases hg
      exact h.some c' hc'
  · rw [hlen, hev]; simp [h.len]
  · intro u hu
    simp only [hlen] at hu ⊢
    rw [List.getElem_append]
    split
    · next hlt =>
      have h1 := h.hist u hlt
      rw [hev, List.take_append_of_le_length (by rw [← h.len]; omega)]
      exact h1
    · next hge =>
      have hu' : u = s.costHistory.length := by simp at hu; omega
      simp only [List.getElem_singleton]
      rw [hev, List.take_of_length_le (by simp; rw [← h.len]; omega)]
      exact hbest

variable [Transc K] [FloorRing K]

theorem callGbest_star (cfg : Config n d K) (hk : cfg.kind.isStar) (o : Oracle n d K)
    (t : TopState n) (s : Swarm n d K) : callGbest cfg o t s = starGbest t s := by
  unfold callGbest
  rcases h : cfg.kind with _ | _ | top | _ <;> simp only [h, Kind.isStar] at hk ⊢
  · rfl
  · cases top <;> simp at hk ⊢ <;> rfl

theorem starInv_iterate (hn : 0 < n) (cfg : Config n d K) (hk : cfg.kind.isStar)
    (ev : Mat n d K → Except Err (Costs n K)) (r : Draw n d K)
    (iters i : Nat) (q : List Bool) (s : Opt n d K) (h : StarInv s) :
    StarInv (iterate cfg ev r iters i q s).1 := by
  have hc := iterate_cases cfg ev r iters i q s
  generalize (iterate cfg ev r iters i q s).1 = s' at hc ⊢
  generalize (iterate cfg ev r iters i q s).2 = o at hc
  cases hc with
  | evalError => exact h
  | gbestError c t e _ hg =>
    exfalso
    rw [callGbest_star cfg hk] at hg
    obtain ⟨t'', k, _, _, _, hcase⟩ := starGbest_spec hn (recordEval c s).top
      (recordEval c s).swarm (fun i => (pbFacts_recordEval h.pb c i).1)
    rcases hcase with ⟨_, heq⟩ | ⟨_, heq⟩ <;> (rw [heq] at hg; cases hg)
  | stop c t g _ hg =>
    rw [callGbest_star cfg hk] at hg
    exact starInv_record hn h c hg
  | moveError c t g s' e _ hg _ hm =>
    rw [callGbest_star cfg hk] at hg
    have hf := moveSwarm_frame cfg r iters i (recordBest t g (recordEval c s))
    rw [hm] at hf
    obtain ⟨_, h2, _, h4, _, _, h7, _, _, _, _, h12, _⟩ := hf
    exact starInv_congr (starInv_record hn h c hg) h12 h2 h4 h7
  | moved c t g s' _ hg _ hm =>
    rw [callGbest_star cfg hk] at hg
    have hf := moveSwarm_frame cfg r iters i (recordBest t g (recordEval c s))
    rw [hm] at hf
    obtain ⟨_, h2, _, h4, _, _, h7, _, _, _, _, h12, _⟩ := hf
    exact starInv_congr (starInv_record hn h c hg) h12 h2 h4 h7

theorem starInv_optimize (hn : 0 < n) (cfg : Config n d K) (hk : cfg.kind.isStar)
    (ev : Nat → Mat n d K → Except Err (Costs n K)) (iters : Nat) (nproc : Option Nat)
    (env : Nat → Draw n d K) (s : Opt n d K) (h : StarInv s) :
    StarInv (optimize cfg ev iters nproc env s).1 :=
  optimize_inv cfg ev iters nproc env StarInv
    (fun s a b c hs => starInv_congr hs rfl rfl rfl rfl)
    (fun s hs => starInv_prep hs)
    (fun i q s hs => starInv_iterate hn cfg hk (ev i) (env i) iters i q s hs) s h

theorem starInv_reachable (hn : 0 < n) (cfg : Config n d K) (hk : cfg.kind.isStar)
    (s : Opt n d K) (h : Reachable cfg s) : StarInv s :=
  reachable_inv cfg StarInv
    (fun r sw t a b p hsw => by
      have := fresh_reachable_init cfg r sw hsw
      exact starInv_init (r := r) t a b p ⟨this.1, this.2.1⟩)
    (fun ev iters nproc env s hs => starInv_optimize hn cfg hk ev iters nproc env s hs) s h

/-- The state of the loop at its normal end, for a call that returned. -/
theorem optimize_ok (cfg : Config n d K) (ev : Nat → Mat n d K → Except Err (Costs n K))
    (iters : Nat) (nproc : Option Nat) (env : Nat → Draw n d K) (s s' : Opt n d K)
    (c : XR K) (p : Vec d K) (h : optimize cfg ev iters nproc env s = (s', .ok (c, p))) :
    ∃ s1, loop cfg ev env iters iters 0 [] (startState cfg nproc s) = (s1, .ok ()) ∧
      s' = { s1 with openPools := s1.openPools - (if nproc.isSome then 1 else 0) } ∧
      s1.swarm.bestCost = some c ∧
      ∃ k, npArgmin s1.swarm.pbestCost = some k ∧ p = s1.swarm.pbestPos k := by
  have hc := optimize_cases cfg ev iters nproc env s
  rw [h] at hc
  simp only at hc
  cases hc with
  | done s1 r hp hl hf =>
    refine ⟨s1, hl, rfl, ?_⟩
    unfold finish at hf
    split at hf
    · cases hf
    · next c' hbc =>
      split at hf
      · cases hf
      · next k hk =>
        cases hf
        exact ⟨hbc, k, hk, rfl⟩

end PySwarms
