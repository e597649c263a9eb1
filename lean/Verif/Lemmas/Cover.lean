import Verif.Lemmas.Gbest
import Verif.Lemmas.Topology

/-! The last `compute_gbest` of a run, and coverage of the swarm by the neighbourhoods. -/

set_option linter.unusedSectionVars false

namespace PySwarms

variable {n d : Nat} {K : Type} [Field K] [LinearOrder K] [Transc K] [FloorRing K]

/-- The state after a non-empty sequence of iterations contains the result of the last
`compute_gbest`. -/
theorem loop_last (cfg : Config n d K) (ev : Nat → Mat n d K → Except Err (Costs n K))
    (env : Nat → Draw n d K) (iters : Nat) (m i : Nat) (hm : 0 < m) (q : List Bool)
    (s s1 : Opt n d K) (h : loop cfg ev env iters m i q s = (s1, .ok ())) :
    ∃ j t0 sw E c, callGbest cfg (env j).oracle t0 sw =
        (s1.top, .ok (s1.swarm.bestPos, s1.swarm.bestCost)) ∧
      sw.pbestPos = s1.swarm.pbestPos ∧ sw.pbestCost = s1.swarm.pbestCost ∧
      s1.evals = s.evals ++ E ++ [(sw.position, c)] ∧
      j = i + E.length ∧
      s1.costHistory.getLast? = some s1.swarm.bestCostVal := by
  induction m generalizing i q s with
  | zero => omega
  | succ m ih =>
    have hc := iterate_cases cfg (ev i) (env i) iters i q s
    unfold loop at h
    generalize hit : iterate cfg (ev i) (env i) iters i q s = res at hc h
    obtain ⟨s', o⟩ := res
    simp only at hc h
    cases hc with
    | evalError => cases h
    | gbestError => cases h
    | stop c t g he hg =>
      cases h
      refine ⟨i, _, _, [], c, hg, rfl, rfl, ?_, by simp, ?_⟩
      · simp [recordBest, Opt.populateHistory, recordEval]
      · simp [recordBest, Opt.populateHistory]
    | moveError => cases h
    | moved c t g s' he hg hns hmv =>
      simp only at h
      have hf := moveSwarm_frame cfg (env i) iters i (recordBest t g (recordEval c s))
      rw [hmv] at hf
      obtain ⟨f1, f2, f3, f4, -, f6, f7, -, -, -, -, f12, -⟩ := hf
      simp only at f1 f2 f3 f4 f6 f7 f12
      have hev : s'.evals = s.evals ++ [(s.swarm.position, c)] := by rw [f12]; rfl
      cases m with
      | zero =>
        simp only [loop] at h
        cases h
        refine ⟨i, (recordEval c s).top, (recordEval c s).swarm, [], c, ?_, ?_, ?_, ?_, by simp, ?_⟩
        · rw [f3, f4, f6]; exact hg
        · rw [f1]; rfl
        · rw [f2]; rfl
        · rw [hev]; simp [recordEval]
        · rw [f7]
          simp [recordBest, Opt.populateHistory, Swarm.bestCostVal, f4]
      | succ m =>
        obtain ⟨j, t0, sw, E, c', h1, h2, h3, h4, h5, h6⟩ := ih (i + 1) (by omega) _ s' h
        refine ⟨j, t0, sw, (s.swarm.position, c) :: E, c', h1, h2, h3, ?_, ?_, h6⟩
        · rw [h4, hev]; simp
        · simp [h5]; omega

/-- `compute_gbest` of a topology other than Star yields the smallest personal best if the
neighbourhoods it used cover the swarm. -/
theorem computeGbest_min {kind : TopKind} (hk : kind ≠ .star) {args : TopArgs} {o : Oracle n d K}
    {t t' : TopState n} {s : Swarm n d K} {g : GBest n d K}
    (hp : ∀ i, s.pbestCost i ≠ XR.nan)
    (h : computeGbest kind args o t s = (t', .ok g))
    (hcov : (∃ st, kind = .ring st ∧ args.k = some 1) ∨ ∃ nbr, t'.neighbor = some nbr ∧ Covers nbr) :
    ∃ c, g.2 = some c ∧ (∃ i, c = s.pbestCost i) ∧ ∀ i, XR.lt (s.pbestCost i) c = false := by
  have hring : ∀ st k p, (k = 1 ∨ ∃ nbr, t'.neighbor = some nbr ∧ Covers nbr) →
      ringGbest st k p o t s = (t', .ok g) →
      ∃ c, g.2 = some c ∧ (∃ i, c = s.pbestCost i) ∧ ∀ i, XR.lt (s.pbestCost i) c = false := by
    intro st k p hc hr
    obtain ⟨t1, -, ⟨-, -, -, h2⟩ | ⟨hk1, rfl, nbr, h1, h2⟩⟩ := ringGbest_cases hr
    · obtain ⟨c, rfl, h3, h4⟩ := gatherBest_spec hp h2
      exact ⟨c, rfl, h3, h4⟩
    · rcases hc with hc | ⟨nbr', hn', hc⟩
      · exact absurd hc hk1
      · rw [h1] at hn'; cases hn'
        obtain ⟨rows, c, rfl, h4⟩ := nbrBest_spec hp h2
        exact ⟨c, rfl, isNbrBest_cover hp h4 hc⟩
  cases kind with
  | star => exact absurd rfl hk
  | ring st =>
    simp only [computeGbest] at h
    split at h
    · next k p hk' hp' =>
      refine hring st k p ?_ h
      rcases hcov with ⟨_, _, h1⟩ | h2
      · rw [hk'] at h1; left; exact Option.some.inj h1
      · right; exact h2
    · cases h
  | vonNeumann =>
    simp only [computeGbest] at h
    split at h
    · refine hring true _ _ ?_ h
      rcases hcov with ⟨_, h0, h1⟩ | h2
      · cases h0
      · right; exact h2
    · cases h
  | pyramid st =>
    simp only [computeGbest] at h
    rcases pyramidGbest_cases h with ⟨-, -, i, hi, rfl⟩ | ⟨-, -, nbr, h1, h2⟩
    · exact ⟨_, rfl, ⟨i, rfl⟩, ((npArgmin_eq_some_iff _ hp i).1 hi).1⟩
    · rcases hcov with ⟨_, h0, _⟩ | ⟨nbr', hn', hc⟩
      · cases h0
      · rw [h1] at hn'; cases hn'
        obtain ⟨rows, c, rfl, h4⟩ := nbrBest_spec hp h2
        exact ⟨c, rfl, isNbrBest_cover hp h4 hc⟩
  | random st =>
    simp only [computeGbest] at h
    split at h
    · obtain ⟨-, nbr, h1, h2⟩ := randomGbest_cases h
      rcases hcov with ⟨_, h0, _⟩ | ⟨nbr', hn', hc⟩
      · cases h0
      · rw [h1] at hn'; cases hn'
        obtain ⟨rows, c, rfl, h4⟩ := nbrBest_spec hp h2
        exact ⟨c, rfl, isNbrBest_cover hp h4 hc⟩
    · cases h

/-- The best cost returned by a topology other than Star is somebody's personal best cost. -/
theorem computeGbest_mem {kind : TopKind} (hk : kind ≠ .star) {args : TopArgs} {o : Oracle n d K}
    {t t' : TopState n} {s : Swarm n d K} {g : GBest n d K}
    (h : computeGbest kind args o t s = (t', .ok g)) : ∃ i, g.2 = some (s.pbestCost i) := by
  have hga : ∀ bn, gatherBest bn s = .ok g → ∃ i, g.2 = some (s.pbestCost i) := by
    intro bn h
    unfold gatherBest at h
    split at h
    · cases h
    · next c hc =>
      cases h
      unfold npMin at hc
      rw [Option.map_eq_some_iff] at hc
      obtain ⟨i, -, rfl⟩ := hc
      exact ⟨bn i, rfl⟩
  have hnb : ∀ nbr, nbrBest nbr s = .ok g → ∃ i, g.2 = some (s.pbestCost i) := by
    intro nbr h
    unfold nbrBest at h
    split at h
    · cases h
    · exact hga _ h
  have hring : ∀ st k p, ringGbest st k p o t s = (t', .ok g) →
      ∃ i, g.2 = some (s.pbestCost i) := by
    intro st k p hr
    obtain ⟨t1, -, ⟨-, -, -, h2⟩ | ⟨-, -, nbr, -, h2⟩⟩ := ringGbest_cases hr
    · exact hga _ h2
    · exact hnb _ h2
  cases kind with
  | star => exact absurd rfl hk
  | ring st =>
    simp only [computeGbest] at h
    split at h
    · exact hring _ _ _ h
    · cases h
  | vonNeumann =>
    simp only [computeGbest] at h
    split at h
    · exact hring _ _ _ h
    · cases h
  | pyramid st =>
    simp only [computeGbest] at h
    rcases pyramidGbest_cases h with ⟨-, -, i, -, rfl⟩ | ⟨-, -, nbr, -, h2⟩
    · exact ⟨i, rfl⟩
    · exact hnb _ h2
  | random st =>
    simp only [computeGbest] at h
    split at h
    · obtain ⟨-, nbr, -, h2⟩ := randomGbest_cases h
      exact hnb _ h2
    · cases h

theorem callGbest_eq (cfg : Config n d K) (o : Oracle n d K) (t : TopState n) (s : Swarm n d K) :
    ∃ args : TopArgs, callGbest cfg o t s = computeGbest cfg.kind.top args o t s ∧
      (cfg.kind.top ≠ .star → args.k = cfg.args.k ∧ args.p = cfg.args.p) := by
  unfold callGbest Kind.top
  cases cfg.kind with
  | globalBest => exact ⟨{}, rfl, by simp⟩
  | localBest st => exact ⟨_, rfl, by simp⟩
  | general t => exact ⟨cfg.args, rfl, by simp⟩
  | binary => exact ⟨_, rfl, by simp⟩

/-- A property of neighbour lists that every answer of the libraries has is kept by the topology
object. -/
def TopInv (P : (Fin n → List (Fin n)) → Prop) (t : TopState n) : Prop :=
  ∀ nbr, t.neighbor = some nbr → P nbr

theorem topInv_computeGbest (P : (Fin n → List (Fin n)) → Prop) (kind : TopKind) (args : TopArgs)
    (o : Oracle n d K) (t : TopState n) (s : Swarm n d K)
    (hall : P (allNeighbors n))
    (hknn : ∀ st k p, kind = .ring st → args.k = some k → args.p = some p → P (o.knn k p s.position))
    (hvn : ∀ p r, kind = .vonNeumann → args.p = some p → args.r = some r →
      P (o.knn (delannoy d r) p s.position))
    (hdel : ∀ st nbr, kind = .pyramid st → o.delaunay s.position = .ok nbr → P nbr)
    (hrand : ∀ st k a, kind = .random st → randomNeighbors k (o.choice k) = .ok a → P (adjLists a))
    (ht : TopInv P t) : TopInv P (computeGbest kind args o t s).1 := by
  have hring : ∀ st k p, P (o.knn k p s.position) → TopInv P (ringGbest st k p o t s).1 := by
    intro st k p hP
    unfold ringGbest
    dsimp only
    split
    · exact ht
    · next t1 hq =>
      have h1 : TopInv P t1 := by
        split at hq
        · unfold ringQuery at hq
          split at hq
          · cases hq
          · split at hq
            · cases hq
            · cases hq; intro nbr h; cases h; exact hP
        · cases hq; exact ht
      split
      · split
        · exact h1
        · exact h1
      · split
        · exact h1
        · exact h1
  cases kind with
  | star =>
    simp only [computeGbest, starGbest]
    have h1 : TopInv P (match t.neighbor with
        | none => { neighbor := some (allNeighbors n), ndim := 2 }
        | some _ => t : TopState n) := by
      cases ht' : t.neighbor with
      | none => intro nbr h; cases h; exact hall
      | some x => exact ht
    split
    · exact h1
    · split
      · exact h1
      · exact h1
  | ring st =>
    simp only [computeGbest]
    split
    · next k p hk hp => exact hring _ _ _ (hknn st k p rfl hk hp)
    · exact ht
  | vonNeumann =>
    simp only [computeGbest]
    split
    · next p r hp hr => exact hring _ _ _ (hvn p r rfl hp hr)
    · exact ht
  | pyramid st =>
    simp only [computeGbest, pyramidGbest]
    split
    · have : TopInv P ({ neighbor := some (allNeighbors n), ndim := 2 } : TopState n) := by
        intro nbr h; cases h; exact hall
      split
      · exact this
      · exact this
    · split
      · exact ht
      · next t1 hq =>
        have h1 : TopInv P t1 := by
          split at hq
          · split at hq
            · cases hq
            · next nbr hd => cases hq; intro nbr' h; cases h; exact hdel st _ rfl hd
          · cases hq; exact ht
        split
        · exact h1
        · exact h1
  | random st =>
    simp only [computeGbest]
    split
    · simp only [randomGbest]
      split
      · exact ht
      · next t1 hq =>
        have h1 : TopInv P t1 := by
          split at hq
          · split at hq
            · cases hq
            · next a ha => cases hq; intro nbr' h; cases h; exact hrand st _ _ rfl ha
          · cases hq; exact ht
        split
        · exact h1
        · exact h1
    · exact ht

/-- The same along the loop. -/
theorem topInv_iterate (P : (Fin n → List (Fin n)) → Prop) (cfg : Config n d K)
    (ev : Mat n d K → Except Err (Costs n K)) (r : Draw n d K) (iters i : Nat) (q : List Bool)
    (s : Opt n d K)
    (hc : ∀ t sw, TopInv P t → TopInv P (callGbest cfg r.oracle t sw).1)
    (hs : TopInv P s.top) : TopInv P (iterate cfg ev r iters i q s).1.top := by
  have hcs := iterate_cases cfg ev r iters i q s
  generalize (iterate cfg ev r iters i q s).1 = s' at hcs ⊢
  generalize (iterate cfg ev r iters i q s).2 = o at hcs
  have key : ∀ (c : Costs n K) t o, callGbest cfg r.oracle (recordEval c s).top (recordEval c s).swarm
      = (t, o) → TopInv P t := by
    intro c t o h
    have := hc (recordEval c s).top (recordEval c s).swarm hs
    rw [h] at this; exact this
  cases hcs with
  | evalError => exact hs
  | gbestError c t e _ hg => exact key c t _ hg
  | stop c t g _ hg => exact key c t _ hg
  | moveError c t g s' e _ hg _ hm =>
    have hf := moveSwarm_frame cfg r iters i (recordBest t g (recordEval c s))
    rw [hm] at hf
    obtain ⟨-, -, -, -, -, f6, -⟩ := hf
    simp only at f6
    rw [f6]; exact key c t _ hg
  | moved c t g s' _ hg _ hm =>
    have hf := moveSwarm_frame cfg r iters i (recordBest t g (recordEval c s))
    rw [hm] at hf
    obtain ⟨-, -, -, -, -, f6, -⟩ := hf
    simp only at f6
    rw [f6]; exact key c t _ hg

theorem covers_all : Covers (allNeighbors n) := fun j => ⟨j, by simp [allNeighbors]⟩

theorem randomNeighbors_refl {k : Nat} {choice : Fin n → List (Fin n)} {a : Adj n}
    (h : randomNeighbors k choice = .ok a) (i : Fin n) : i ∈ adjLists a i := by
  have hn : 0 < n := Nat.lt_of_le_of_lt (Nat.zero_le _) i.2
  by_cases hk : k < n
  · rw [randomNeighbors_ok k choice hn hk] at h
    cases h
    simp only [adjLists, List.mem_filter, List.mem_finRange, true_and]
    split
    · simp [drawnAdj]
    · simp only [addMissing]; split
      · rfl
      · simp [drawnAdj]
  · have h1 : ¬ n = 0 := by omega
    have h2 : k > n - 1 := by omega
    simp [randomNeighbors, h1, h2] at h

/-- The pair (best cost, position returned at the end) after a non-empty covered run. -/
theorem covered_pair (cfg : Config n d K) (hk : cfg.kind.top ≠ .star)
    (ev : Nat → Mat n d K → Except Err (Costs n K)) (env : Nat → Draw n d K) (iters m : Nat)
    (hm : 0 < m) (s s1 : Opt n d K) (hpb : s.swarm.pbestCost = fun _ => XR.pinf)
    (h : loop cfg ev env iters m 0 [] s = (s1, .ok ()))
    (hcov : (cfg.args.k = some 1 ∧ ∃ st, cfg.kind.top = .ring st) ∨
      ∃ nbr, s1.top.neighbor = some nbr ∧ Covers nbr) :
    ∃ E, s1.evals = s.evals ++ E ∧ LogOf ev E ∧
      IsMinOf s1.swarm.bestCostVal (allCosts E) ∧
      s1.costHistory.getLast? = some s1.swarm.bestCostVal ∧
      ∀ k, npArgmin s1.swarm.pbestCost = some k → s1.swarm.bestCostVal ≠ XR.pinf →
        ∃ e ∈ E, ∃ i, e.1 i = s1.swarm.pbestPos k ∧ e.2 i = s1.swarm.bestCostVal := by
  obtain ⟨E, h1, h2, h3⟩ := loop_log cfg ev env iters m 0 [] s
  have hI : PInv s.evals s.swarm.pbestPos s :=
    ⟨[], by simp, fun i => by rw [hpb]; exact isPersonalBest_nil _⟩
  obtain ⟨E', h1', hpb'⟩ := loop_inv cfg ev env iters _
    (fun i q s hs => pInv_iterate cfg (ev i) (env i) iters i q s hs) m 0 [] _ hI
  rw [h] at h1 h1' hpb'
  simp only at h1 h1' hpb'
  rw [h1] at h1'
  obtain rfl := List.append_cancel_left h1'
  obtain ⟨j, t0, sw, -, -, hg, e1, e2, -, -, hlast⟩ := loop_last cfg ev env iters m 0 hm [] s s1 h
  obtain ⟨args, ha, hargs⟩ := callGbest_eq cfg (env j).oracle t0 sw
  rw [ha] at hg
  have hnn : ∀ i, s1.swarm.pbestCost i ≠ XR.nan := fun i => isPersonalBest_ne_nan (hpb' i)
  obtain ⟨c, hc, ⟨i0, hi0⟩, hmin⟩ := computeGbest_min hk (by rw [e2]; exact hnn) hg (by
    rcases hcov with ⟨hk1, st, hst⟩ | hcov
    · left; exact ⟨st, hst, by rw [(hargs hk).1]; exact hk1⟩
    · right; exact hcov)
  rw [e2] at hmin hi0
  simp only at hc
  have hcv : s1.swarm.bestCostVal = c := by simp [Swarm.bestCostVal, hc]
  rw [hcv]
  refine ⟨E, h1, by simpa [LogOf] using h3, ⟨?_, ?_, ?_⟩, by rw [hlast, hcv], ?_⟩
  · rw [hi0]; exact hnn i0
  · by_cases hinf : c = XR.pinf
    · left; exact hinf
    · right
      rw [hi0] at hinf ⊢
      obtain ⟨e, he, _, h5⟩ := isPersonalBest_mem (hpb' i0) hinf
      exact (mem_allCosts _ _).2 ⟨e, he, i0, h5⟩
  · intro x hx
    obtain ⟨e, he, i, rfl⟩ := (mem_allCosts _ _).1 hx
    refine XR.not_lt_trans (hnn i) ?_ (hmin i)
    exact isPersonalBest_not_below (hpb' i) (e.1 i, e.2 i) (List.mem_map.2 ⟨e, he, rfl⟩)
  · intro k hkk hinf
    rw [npArgmin_eq_some_iff _ hnn] at hkk
    have hck : c = s1.swarm.pbestCost k := by
      rw [hi0]
      refine XR.eq_of_not_lt (hnn i0) (hnn k) (hkk.1 i0) ?_
      rw [← hi0]; exact hmin k
    rw [hck] at hinf ⊢
    obtain ⟨e, he, h4, h5⟩ := isPersonalBest_mem (hpb' k) hinf
    exact ⟨e, he, k, h4, h5⟩

end PySwarms
