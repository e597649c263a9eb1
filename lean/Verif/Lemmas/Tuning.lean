import Verif.Model.Tuning
import Verif.Lemmas.Star
import Verif.Lemmas.Sim
import Verif.Lemmas.Runs
import Verif.Props.Bounds
import Verif.Lemmas.Gbest
import Verif.Lemmas.FixedParam

/-! Lemmas for C110: programs that change an optimizer between calls. -/

set_option linter.unusedSectionVars false

namespace PySwarms

variable {n d : Nat} {K : Type} [Field K] [LinearOrder K]

/-- The same optimizer with further entries in front of `cost_history`. -/
def older (H : List (XR K)) (s : Opt n d K) : Opt n d K :=
  { s with costHistory := H ++ s.costHistory }

variable [Transc K] [FloorRing K]

theorem moveSwarm_older (H : List (XR K)) (cfg : Config n d K) (r : Draw n d K) (iters i : Nat)
    (s : Opt n d K) :
    moveSwarm cfg r iters i (older H s) =
      (older H (moveSwarm cfg r iters i s).1, (moveSwarm cfg r iters i s).2) := by
  unfold moveSwarm
  show (match callOptions cfg iters i r s.swarm with | .error e => _ | .ok o => _) = _
  cases callOptions cfg iters i r s.swarm with
  | error e => rfl
  | ok o =>
    dsimp only [older]
    generalize computeVelocity { s.swarm with options := o } cfg.clamp cfg.vhStrategy s.vhMem
      (velBounds cfg) r.r1 r.r2 = q
    obtain ⟨vm, e | v⟩ := q
    · rfl
    · dsimp only
      generalize callPosition cfg r s.bhMem { s.swarm with options := o, velocity := v } = q
      obtain ⟨bm, e | p⟩ := q <;> rfl

theorem iterate_older (H : List (XR K)) (cfg : Config n d K)
    (ev : Mat n d K → Except Err (Costs n K)) (r : Draw n d K) (iters i : Nat) (q : List Bool)
    (s : Opt n d K) :
    (iterate cfg ev r iters i q (older H s)).1 = older H (iterate cfg ev r iters i q s).1 := by
  refine (iterate_sim cfg cfg ev ev r r iters i q (fun s s' => s' = older H s) ?_ ?_ rfl ?_ s
    (older H s) rfl).1
  · rintro s _ rfl
    show ExRel _ (ev s.swarm.position) (ev s.swarm.position)
    cases ev s.swarm.position with
    | error e => rfl
    | ok c => rfl
  · rintro s _ rfl
    refine ⟨rfl, ?_⟩
    show ExRel _ (callGbest cfg r.oracle s.top s.swarm).2 (callGbest cfg r.oracle s.top s.swarm).2
    cases (callGbest cfg r.oracle s.top s.swarm).2 with
    | error e => rfl
    | ok g =>
      refine ⟨?_, rfl⟩
      simp only [recordBest, older, Opt.populateHistory, List.append_assoc]
  · rintro s _ rfl
    rw [moveSwarm_older]
    exact ⟨rfl, rfl⟩

/-- The invariant of a Star optimizer some of whose first history entries were thrown away. -/
def StarLate (s : Opt n d K) : Prop := ∃ H, StarInv (older H s)

theorem StarLate.congr {s s' : Opt n d K} (h : StarLate s) (h1 : s'.evals = s.evals)
    (h2 : s'.swarm.pbestCost = s.swarm.pbestCost) (h3 : s'.swarm.bestCost = s.swarm.bestCost)
    (h4 : s'.costHistory = s.costHistory) : StarLate s' := by
  obtain ⟨H, h⟩ := h
  exact ⟨H, starInv_congr h h1 h2 h3 (by unfold older; rw [h4])⟩

theorem StarLate.optimize (hn : 0 < n) {cfg : Config n d K} (hk : cfg.kind.isStar)
    (ev : Nat → Mat n d K → Except Err (Costs n K)) (iters : Nat) (nproc : Option Nat)
    (env : Nat → Draw n d K) {s : Opt n d K} (h : StarLate s) :
    StarLate (optimize cfg ev iters nproc env s).1 := by
  refine optimize_inv cfg ev iters nproc env StarLate
    (fun s a b c hs => hs.congr rfl rfl rfl rfl) ?_ ?_ s h
  · rintro s ⟨H, hs⟩
    exact ⟨H, starInv_prep hs⟩
  · rintro i q s ⟨H, hs⟩
    refine ⟨H, ?_⟩
    rw [← iterate_older]
    exact starInv_iterate hn cfg hk (ev i) (env i) iters i q _ hs

theorem StarLate.reset {cfg : Config n d K} (r : InitDraw n d K) {s : Opt n d K}
    (h : StarLate s) : StarLate (reset cfg r s).1 := by
  unfold PySwarms.reset
  dsimp only
  cases hr : resetSwarm cfg r with
  | error e =>
    obtain ⟨H, h⟩ := h
    exact ⟨H ++ s.costHistory, starInv_congr h rfl rfl rfl (by simp [older])⟩
  | ok sw =>
    have hf := fresh_reachable_init cfg r sw hr
    exact ⟨[], starInv_init (r := r) _ _ _ _ ⟨hf.1, hf.2.1⟩⟩

/-- What the invariant says without the discarded entries. -/
theorem StarLate.spec {s : Opt n d K} (h : StarLate s) :
    IsMinOf s.swarm.bestCostVal (allCosts s.evals) ∧
      s.costHistory.length ≤ s.evals.length ∧
      ∀ (t : Nat) (ht : t < s.costHistory.length), IsMinOf s.costHistory[t]
        (allCosts (s.evals.take (s.evals.length - s.costHistory.length + t + 1))) := by
  obtain ⟨H, hpb, hbest, -, hlen, hhist⟩ := h
  have hl : H.length + s.costHistory.length = s.evals.length := by
    rw [← List.length_append]; exact hlen
  refine ⟨hbest, by omega, fun t ht => ?_⟩
  have h1 : (older H s).costHistory.length = H.length + s.costHistory.length := by
    simp [older]
  have := hhist (H.length + t) (by rw [h1]; omega)
  have e1 : (older H s).costHistory[H.length + t]'(by rw [h1]; omega) = s.costHistory[t] := by
    simp [older]
  rw [e1] at this
  have e2 : s.evals.length - s.costHistory.length + t + 1 = H.length + t + 1 := by omega
  rw [e2]
  exact this

/-! ### Attributes that `optimize` does not read -/

theorem loop_dormant {cfg cfg' : Config n d K}
    (h : ∀ ev r iters i q s, iterate cfg' ev r iters i q s = iterate cfg ev r iters i q s)
    (ev : Nat → Mat n d K → Except Err (Costs n K)) (env : Nat → Draw n d K) (iters : Nat) :
    ∀ m i q s, loop cfg' ev env iters m i q s = loop cfg ev env iters m i q s := by
  intro m
  induction m with
  | zero => intro i q s; rfl
  | succ m ih =>
    intro i q s
    unfold loop
    rw [h]
    split
    · rfl
    · rfl
    · exact ih _ _ _

theorem optimize_dormant {cfg cfg' : Config n d K}
    (h : ∀ ev r iters i q s, iterate cfg' ev r iters i q s = iterate cfg ev r iters i q s)
    (hp : ∀ s, prepare cfg' s = prepare cfg s)
    (ev : Nat → Mat n d K → Except Err (Costs n K)) (iters : Nat) (nproc : Option Nat)
    (env : Nat → Draw n d K) (s : Opt n d K) :
    optimize cfg' ev iters nproc env s = optimize cfg ev iters nproc env s := by
  unfold optimize
  rw [hp]
  simp only [loop_dormant h]

/-! ### Staying outside -/

/-- The particle positions, the personal best positions and the best position or positions are all
above `u` in dimension `j`. -/
structure Beyond (u : K) (j : Fin d) (s : Opt n d K) : Prop where
  position : ∀ i, u < s.swarm.position i j
  pbest : ∀ i, u < s.swarm.pbestPos i j
  best : match s.swarm.bestPos with
    | .empty => True
    | .single v => u < v j
    | .perParticle m => ∀ i, u < m i j

/-- The same inside a call that started after the evaluations `E`. -/
structure BeyondIn (u : K) (j : Fin d) (E : List (Mat n d K × Costs n K)) (s : Opt n d K) : Prop
    extends Beyond u j s where
  mem : ∃ m, s.bhMem = some m ∧ ∀ i, u < m i j
  evals : ∃ new, s.evals = E ++ new ∧ ∀ e ∈ new, ∀ i, u < e.1 i j

theorem BeyondIn.recordEval {u : K} {j : Fin d} {E : List (Mat n d K × Costs n K)} {s : Opt n d K}
    (h : BeyondIn u j E s) (c : Costs n K) : BeyondIn u j E (recordEval c s) := by
  obtain ⟨⟨h1, h2, h3⟩, h4, new, h5, h6⟩ := h
  refine ⟨⟨h1, fun i => ?_, h3⟩, h4, new ++ [(s.swarm.position, c)], ?_, ?_⟩
  · rcases recordEval_pbestPos_or c s i with h | h
    · rw [h]; exact h2 i
    · rw [h]; exact h1 i
  · show s.evals ++ [(s.swarm.position, c)] = _
    rw [h5, List.append_assoc]
  · intro e he
    rw [List.mem_append, List.mem_singleton] at he
    rcases he with he | rfl
    · exact h6 e he
    · exact h1

theorem BeyondIn.recordBest {u : K} {j : Fin d} {E : List (Mat n d K × Costs n K)} {s : Opt n d K}
    (h : BeyondIn u j E s) (t : TopState n) {g : GBest n d K} (hg : GbestFrom s.swarm g) :
    BeyondIn u j E (recordBest t g s) := by
  obtain ⟨⟨h1, h2, h3⟩, h4, h5⟩ := h
  refine ⟨⟨h1, h2, ?_⟩, h4, h5⟩
  show match g.1 with
    | .empty => True
    | .single v => u < v j
    | .perParticle m => ∀ i, u < m i j
  cases hg with
  | prev => exact h3
  | single i => exact h2 i
  | rows bn i => exact fun i => h2 (bn i)

variable [IsStrictOrderedRing K]

/-- A point between points above `u` is above `u`. -/
theorem between_above {u x p g a b : K} (hx : u < x) (hp : u < p) (hg : u < g) (ha : 0 ≤ a)
    (hb : 0 ≤ b) (hab : a + b ≤ 1) : u < x + (a * (p - x) + b * (g - x)) := by
  have h1 : 0 ≤ a * (p - u) := mul_nonneg ha (sub_nonneg.2 hp.le)
  have h2 : 0 ≤ b * (g - u) := mul_nonneg hb (sub_nonneg.2 hg.le)
  have h3 : 0 ≤ (1 - a - b) * (x - u) := mul_nonneg (by linarith) (sub_nonneg.2 hx.le)
  have e : x + (a * (p - x) + b * (g - x)) - u =
      (1 - a - b) * (x - u) + a * (p - u) + b * (g - u) := by ring
  by_contra hle
  have hz : (1 - a - b) * (x - u) + a * (p - u) + b * (g - u) ≤ 0 := by rw [← e]; linarith
  have z1 : a * (p - u) = 0 := by linarith
  have z2 : b * (g - u) = 0 := by linarith
  have z3 : (1 - a - b) * (x - u) = 0 := by linarith
  have a0 : a = 0 := (mul_eq_zero.1 z1).resolve_right (sub_pos.2 hp).ne'
  have b0 : b = 0 := (mul_eq_zero.1 z2).resolve_right (sub_pos.2 hg).ne'
  have c0 := (mul_eq_zero.1 z3).resolve_right (sub_pos.2 hx).ne'
  rw [a0, b0] at c0
  norm_num at c0

/-- The optimizer has no inertia, its two other weights are nonnegative with sum at most 1, they are
constant, the velocities are not changed, and out-of-bounds particles are treated with
`intermediate`. -/
structure Contracting (cfg : Config n d K) (b : Bounds d K) : Prop where
  notBinary : cfg.kind ≠ .binary
  bounds : cfg.bounds = some b
  strategy : cfg.bhStrategy = "intermediate"
  velocity : cfg.vhStrategy = "unmodified"
  clamp : cfg.clamp = none
  schedule : cfg.ohStrategy = []
  weights : ∃ c1 c2, cfg.options.lookup "c1" = some c1 ∧ cfg.options.lookup "c2" = some c2 ∧
    cfg.options.lookup "w" = some 0 ∧ 0 ≤ c1 ∧ 0 ≤ c2 ∧ c1 + c2 ≤ 1

theorem BeyondIn.moveSwarm {cfg : Config n d K} {b : Bounds d K} (hc : Contracting cfg b)
    {j : Fin d} {E : List (Mat n d K × Costs n K)} {r : Draw n d K} (hr : r.Legal) (iters i : Nat)
    {s : Opt n d K} (h : BeyondIn (b.2 j) j E s) :
    BeyondIn (b.2 j) j E (moveSwarm cfg r iters i s).1 := by
  obtain ⟨⟨h1, h2, h3⟩, ⟨m, h4, h5⟩, h6⟩ := h
  have hm := moveSwarm_cases cfg r iters i s
  generalize (PySwarms.moveSwarm cfg r iters i s).1 = s' at hm ⊢
  generalize (PySwarms.moveSwarm cfg r iters i s).2 = out at hm
  have hpos : ∀ v, callPosition cfg r s.bhMem v =
      bhIntermediate b (some m) (fun i j => v.position i j + v.velocity i j) := by
    intro v
    rw [callPosition_bounds hc.notBinary hc.bounds, h4, hc.strategy]
    rfl
  cases hm with
  | optError e h => exact ⟨⟨h1, h2, h3⟩, ⟨m, h4, h5⟩, h6⟩
  | velError o vm e h hv => exact ⟨⟨h1, h2, h3⟩, ⟨m, h4, h5⟩, h6⟩
  | posError o vm v bm e h hv hp =>
    rw [hpos] at hp
    cases hp
  | ok o vm v bm p h hv hp =>
    rw [hpos] at hp
    obtain ⟨c1, c2, hc1, hc2, hw, p1, p2, p3⟩ := hc.weights
    have ho : o = cfg.options := by
      unfold callOptions ohCall at h
      rw [hc.schedule] at h
      cases hkk : cfg.kind with
      | binary => exact absurd hkk hc.notBinary
      | globalBest => rw [hkk] at h; cases h; rfl
      | localBest st => rw [hkk] at h; cases h; rfl
      | general t => rw [hkk] at h; cases h; rfl
    subst ho
    have hv' : s.swarm.bestPos ≠ .empty ∧
        v = tempVelocity c1 c2 0 r.r1 r.r2 { s.swarm with options := cfg.options } := by
      unfold computeVelocity at hv
      simp only [hc1, hc2, hw, hc.velocity, hc.clamp] at hv
      cases hb : s.swarm.bestPos with
      | empty =>
        rw [hb] at hv
        dsimp only at hv
        have hd : d ≠ 0 := by rintro rfl; exact j.elim0
        rw [if_neg hd] at hv
        split_ifs at hv with hq hs
        · exact absurd hs (by decide)
        · cases (Prod.mk.inj hv).2
        · cases (Prod.mk.inj hv).2
      | single g =>
        rw [hb] at hv
        cases (Prod.mk.inj hv).2
        refine ⟨by simp, ?_⟩
        rw [← hb]
        rfl
      | perParticle g =>
        rw [hb] at hv
        cases (Prod.mk.inj hv).2
        refine ⟨by simp, ?_⟩
        rw [← hb]
        rfl
    obtain ⟨hne, rfl⟩ := hv'
    have hprop : ∀ i, b.2 j < s.swarm.position i j +
        tempVelocity c1 c2 0 r.r1 r.r2 { s.swarm with options := cfg.options } i j := by
      intro i
      have hg : b.2 j < s.swarm.bestPos.row s.swarm.position i j := by
        cases hb : s.swarm.bestPos with
        | empty => exact absurd hb hne
        | single g => rw [hb] at h3; exact h3
        | perParticle g => rw [hb] at h3; exact h3 i
      have r1 := hr.1 i j
      have r2 := hr.2.1 i j
      have e : tempVelocity c1 c2 0 r.r1 r.r2 { s.swarm with options := cfg.options } i j =
          c1 * r.r1 i j * (s.swarm.pbestPos i j - s.swarm.position i j) +
          c2 * r.r2 i j * (s.swarm.bestPos.row s.swarm.position i j - s.swarm.position i j) := by
        unfold tempVelocity
        dsimp only
        ring
      rw [e]
      refine between_above (h1 i) (h2 i) hg (mul_nonneg p1 r1.1) (mul_nonneg p2 r2.1) ?_
      have q1 : c1 * r.r1 i j ≤ c1 := by
        calc c1 * r.r1 i j ≤ c1 * 1 := mul_le_mul_of_nonneg_left r1.2.le p1
          _ = c1 := mul_one _
      have q2 : c2 * r.r2 i j ≤ c2 := by
        calc c2 * r.r2 i j ≤ c2 * 1 := mul_le_mul_of_nonneg_left r2.2.le p2
          _ = c2 := mul_one _
      linarith
    cases hp
    have hnew : ∀ i, b.2 j < (if isHigh b (fun i j => s.swarm.position i j +
        tempVelocity c1 c2 0 r.r1 r.r2 { s.swarm with options := cfg.options } i j) i j then
          (1 / 2) * (m i j + b.2 j) else
        (if isLow b (fun i j => s.swarm.position i j +
          tempVelocity c1 c2 0 r.r1 r.r2 { s.swarm with options := cfg.options } i j) i j then
            (1 / 2) * (m i j + b.1 j) else s.swarm.position i j +
          tempVelocity c1 c2 0 r.r1 r.r2 { s.swarm with options := cfg.options } i j)) := by
      intro i
      rw [if_pos]
      · have := h5 i; linarith
      · unfold isHigh
        exact decide_eq_true (hprop i)
    exact ⟨⟨hnew, h2, h3⟩, ⟨_, rfl, hnew⟩, h6⟩

theorem BeyondIn.iterate {cfg : Config n d K} {b : Bounds d K} (hc : Contracting cfg b)
    {j : Fin d} {E : List (Mat n d K × Costs n K)} (ev : Mat n d K → Except Err (Costs n K))
    {r : Draw n d K} (hr : r.Legal) (iters i : Nat) (q : List Bool)
    {s : Opt n d K} (hs : BeyondIn (b.2 j) j E s) :
    BeyondIn (b.2 j) j E (iterate cfg ev r iters i q s).1 := by
  have hi := iterate_cases cfg ev r iters i q s
  generalize (PySwarms.iterate cfg ev r iters i q s).1 = s' at hi ⊢
  generalize (PySwarms.iterate cfg ev r iters i q s).2 = o at hi
  cases hi with
  | evalError e h => exact hs
  | gbestError c t e h hg =>
    have := hs.recordEval c
    exact ⟨⟨this.1.1, this.1.2, this.1.3⟩, this.2, this.3⟩
  | stop c t g h hg hi hq => exact (hs.recordEval c).recordBest t (callGbest_from hg)
  | moveError c t g _ e h hg hns hm =>
    have := ((hs.recordEval c).recordBest t (callGbest_from hg)).moveSwarm hc hr iters i
    rw [hm] at this; exact this
  | moved c t g _ h hg hns hm =>
    have := ((hs.recordEval c).recordBest t (callGbest_from hg)).moveSwarm hc hr iters i
    rw [hm] at this; exact this

theorem Beyond.optimize {cfg : Config n d K} {b : Bounds d K} (hc : Contracting cfg b)
    {j : Fin d} (ev : Nat → Mat n d K → Except Err (Costs n K)) (iters : Nat)
    (nproc : Option Nat) (env : Nat → Draw n d K) (henv : ∀ i, (env i).Legal)
    (E : List (Mat n d K × Costs n K)) {s : Opt n d K} (hs : Beyond (b.2 j) j s)
    (hE : ∃ new, s.evals = E ++ new ∧ ∀ e ∈ new, ∀ i, b.2 j < e.1 i j) :
    Beyond (b.2 j) j (optimize cfg ev iters nproc env s).1 ∧
      ∃ new, (optimize cfg ev iters nproc env s).1.evals = E ++ new ∧
        ∀ e ∈ new, ∀ i, b.2 j < e.1 i j := by
  refine optimize_inv2 cfg ev iters nproc env
    (fun s => Beyond (b.2 j) j s ∧ ∃ new, s.evals = E ++ new ∧ ∀ e ∈ new, ∀ i, b.2 j < e.1 i j)
    (BeyondIn (b.2 j) j E) ?_
    (fun i q s hs => hs.iterate hc (ev i) (henv i) iters i q) ?_ ?_ s ⟨hs, hE⟩
  · rintro s ⟨⟨h1, h2, h3⟩, h4⟩
    refine ⟨⟨h1, h2, h3⟩, ⟨s.swarm.position, ?_, h1⟩, h4⟩
    unfold startState prepare
    dsimp only
    cases hkk : cfg.kind <;> first | rfl | exact absurd hkk hc.notBinary
  · rintro s c ⟨⟨h1, h2, h3⟩, -, h4⟩; exact ⟨⟨h1, h2, h3⟩, h4⟩
  · rintro s a c ⟨⟨h1, h2, h3⟩, h4⟩; exact ⟨⟨h1, h2, h3⟩, h4⟩

end PySwarms
