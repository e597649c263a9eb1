import Verif.Props.Drift
import Verif.Props.Local
import Verif.Props.SearchSeed

/-!
# What a one-sided velocity clamp makes of a hyperparameter search (C89)

`GridSearch` and `RandomSearch` use `velocity_clamp=(0, 1)` unless told otherwise, so no coordinate
ever decreases.  On an objective that grows with every coordinate – the sphere function of the
documented example on its starting box, for one – nothing better than the initial positions is ever
found, and the search compares random initial swarms.
-/

set_option linter.unusedSectionVars false

namespace PySwarms

variable {n d : Nat} {K : Type} [Field K] [LinearOrder K] [IsStrictOrderedRing K] [Transc K]
  [FloorRing K]

/-- `f` does not decrease when coordinates grow, on points without negative coordinates. -/
def GrowsUpward (f : Vec d K → K) : Prop :=
  ∀ x y : Vec d K, (∀ j, 0 ≤ x j) → (∀ j, x j ≤ y j) → f x ≤ f y

/-- The objective function that applies `f` to each particle. -/
def rowwise (f : Vec d K → K) : Nat → Mat n d K → Except Err (Costs n K) :=
  fun _ x => .ok fun i => XR.fin (f (x i))

/-- The costs of the given positions under `f`. -/
def costsOf (f : Vec d K → K) (x : Mat n d K) : List (XR K) :=
  (List.finRange n).map fun i => XR.fin (f (x i))

/-- No bounds, and a clamp that lets no coordinate decrease. -/
structure UpwardCfg (cfg : Config n d K) : Prop where
  kind : cfg.kind ≠ .binary
  bounds : cfg.bounds = none
  clamp : ∃ hi : Vec d K, (∀ j, 0 ≤ hi j) ∧ cfg.clamp = some (fun _ => 0, hi)
  strategy : cfg.vhStrategy ≠ "zero"

/-- Every evaluation of the call is at positions not below the initial ones, and the first is at
the initial ones. -/
theorem upward_evals (cfg : Config n d K) (hc : UpwardCfg cfg) (s : Opt n d K) (hf : Fresh cfg s)
    (ev : Nat → Mat n d K → Except Err (Costs n K)) (iters : Nat) (nproc : Option Nat)
    (env : Nat → Draw n d K) :
    (∀ e ∈ (optimize cfg ev iters nproc env s).1.evals, ∀ i j, s.swarm.position i j ≤ e.1 i j) ∧
      ∀ e, (optimize cfg ev iters nproc env s).1.evals.head? = some e →
        e.1 = s.swarm.position := by
  obtain ⟨hi, h0, hcl⟩ := hc.clamp
  have hcc : ∀ j, ((fun _ => 0, hi) : Clamp d K).1 j ≤ 0 ∧ 0 ≤ ((fun _ => 0, hi) : Clamp d K).2 j :=
    fun j => ⟨le_refl _, h0 j⟩
  have hrun : runOps cfg s [.optimize ev iters nproc env] =
      (optimize cfg ev iters nproc env s).1 := rfl
  refine ⟨fun e he i j => ?_, fun e he => ?_⟩
  · obtain ⟨k, hk, rfl⟩ := List.getElem_of_mem he
    have := (C64_reach cfg _ hc.kind hc.bounds hcl hcc hc.strategy s hf
      [.optimize ev iters nproc env] (by simp [Op.isOptimize]) k (by rw [hrun]; exact hk) i j).1
    simpa [hrun] using this
  · have := (C64_steps cfg _ hc.kind hc.bounds hcl hcc hc.strategy s hf
      [.optimize ev iters nproc env] (by simp [Op.isOptimize])).2
    rw [hrun] at this
    unfold visited at this
    cases hE : (optimize cfg ev iters nproc env s).1.evals with
    | nil => rw [hE] at he; cases he
    | cons a l =>
      rw [hE] at he this
      simp at he this
      rw [← he]; exact this

/-- A loop of at least one iteration that ends without an exception has evaluated something. -/
theorem loop_evals_ne_nil (cfg : Config n d K) (ev : Nat → Mat n d K → Except Err (Costs n K))
    (env : Nat → Draw n d K) (iters m : Nat) (hm : 0 < m) (i : Nat) (q : List Bool)
    (s s1 : Opt n d K) (h : loop cfg ev env iters m i q s = (s1, .ok ())) : s1.evals ≠ [] := by
  have hit : ∀ i q (s : Opt n d K), s.evals ≠ [] ∨ (∃ b, (iterate cfg (ev i) (env i) iters i q s).2 = .ok b) →
      (iterate cfg (ev i) (env i) iters i q s).1.evals ≠ [] := by
    intro i q s hs
    have hcs := iterate_cases cfg (ev i) (env i) iters i q s
    generalize (iterate cfg (ev i) (env i) iters i q s).1 = s' at hcs ⊢
    generalize (iterate cfg (ev i) (env i) iters i q s).2 = o at hcs hs
    cases hcs with
    | evalError e h =>
      rcases hs with h | ⟨b, h⟩
      · exact h
      · cases h
    | gbestError c t e h hg => simp [recordEval]
    | stop c t g h hg hi hq => simp [recordBest, recordEval, Opt.populateHistory]
    | moveError c t g s' e h hg hns hm =>
      have h2 := moveSwarm_frame cfg (env i) iters i (recordBest t g (recordEval c s))
      rw [hm] at h2
      have h3 : s'.evals = (recordBest t g (recordEval c s)).evals := by
        simp only at h2; tauto
      rw [h3]; simp [recordBest, recordEval, Opt.populateHistory]
    | moved c t g s' h hg hns hm =>
      have h2 := moveSwarm_frame cfg (env i) iters i (recordBest t g (recordEval c s))
      rw [hm] at h2
      have h3 : s'.evals = (recordBest t g (recordEval c s)).evals := by
        simp only at h2; tauto
      rw [h3]; simp [recordBest, recordEval, Opt.populateHistory]
  obtain ⟨m, rfl⟩ : ∃ k, m = k + 1 := ⟨m - 1, by omega⟩
  have h1 := hit i q s
  have hs1 : s1 = (loop cfg ev env iters (m + 1) i q s).1 := by rw [h]
  unfold loop at h hs1
  split at h
  · cases h
  · next s' he =>
    rw [he] at h1
    cases h
    exact h1 (Or.inr ⟨_, rfl⟩)
  · next s' q' he =>
    rw [he] at h1
    have := loop_inv cfg ev env iters (fun s => s.evals ≠ []) (fun i q s h => hit i q s (Or.inl h))
      m (i + 1) q' s' (h1 (Or.inr ⟨_, rfl⟩))
    rw [h] at this
    exact this

theorem fresh_evals (cfg : Config n d K) (s : Opt n d K) (hf : Fresh cfg s) : s.evals = [] := by
  obtain ⟨r, sw, t, a, b, p, hsw, rfl⟩ := fresh_cases cfg s hf
  rfl

/-- C89: with a one-sided clamp, no bounds and an objective that grows with the coordinates, the
personal bests are the initial positions and their costs for the whole run – whatever the options,
the topology, the draws and the number of iterations, and however the call ends. -/
theorem C89_personal_bests (cfg : Config n d K) (hc : UpwardCfg cfg) (f : Vec d K → K)
    (hup : GrowsUpward f) (s : Opt n d K) (hf : Fresh cfg s)
    (hpos : ∀ i j, 0 ≤ s.swarm.position i j) (iters : Nat) (nproc : Option Nat)
    (hp : nproc ≠ some 0) (env : Nat → Draw n d K) (s' : Opt n d K)
    (r : Except Err (XR K × Vec d K))
    (ho : optimize cfg (rowwise f) iters nproc env s = (s', r)) (he : s'.evals ≠ []) (i : Fin n) :
    s'.swarm.pbestPos i = s.swarm.position i ∧
      s'.swarm.pbestCost i = XR.fin (f (s.swarm.position i)) := by
  obtain ⟨E, hE, hlog, -, hpb⟩ := C01_personal_best cfg (rowwise f) env iters nproc hp s
  obtain ⟨hge, hhd⟩ := upward_evals cfg hc s hf (rowwise f) iters nproc env
  rw [ho] at hE hpb hge hhd
  dsimp only at hE hpb hge hhd
  rw [fresh_evals cfg s hf, List.nil_append] at hE
  rw [hE] at he hge hhd
  obtain ⟨e0, rest, rfl⟩ := List.exists_cons_of_ne_nil he
  have h0 := hhd e0 rfl
  have hcost : ∀ e ∈ e0 :: rest, e.2 i = XR.fin (f (e.1 i)) := by
    intro e hm
    obtain ⟨k, hk, rfl⟩ := List.getElem_of_mem hm
    have := hlog k hk
    unfold rowwise at this
    injection this with this
    rw [← this]
  have hmono : ∀ e ∈ e0 :: rest, f (s.swarm.position i) ≤ f (e.1 i) :=
    fun e hm => hup _ _ (hpos i) (hge e hm i)
  rcases hpb i with ⟨hno, -, -⟩ | ⟨pre, post, hl, -, hpre, hpost⟩
  · have := hno (e0.1 i, e0.2 i) (by simp [particleLog])
    rw [hcost e0 (by simp)] at this
    rcases this with h | h <;> cases h
  · cases pre with
    | nil =>
      simp only [particleLog, List.map_cons, List.nil_append, List.cons.injEq, Prod.mk.injEq] at hl
      obtain ⟨⟨h1, h2⟩, -⟩ := hl
      rw [← h1, ← h2, hcost e0 (by simp), h0]
      exact ⟨rfl, rfl⟩
    | cons a pre =>
      exfalso
      simp only [particleLog, List.map_cons, List.cons_append, List.cons.injEq] at hl
      obtain ⟨ha, hl⟩ := hl
      have hmem : (s'.swarm.pbestPos i, s'.swarm.pbestCost i) ∈ rest.map fun e => (e.1 i, e.2 i) := by
        rw [hl]; simp
      obtain ⟨e, hm, hep⟩ := List.mem_map.1 hmem
      have h1 := hpre a (by simp)
      rw [← ha] at h1
      simp only [Prod.mk.injEq] at hep
      rw [← hep.2, hcost e0 (by simp), hcost e (by simp [hm]), h0] at h1
      rcases h1 with h1 | h1
      · cases h1
      · simp only [XR.lt, decide_eq_true_eq] at h1
        exact absurd (hmono e (by simp [hm])) (not_le.2 h1)

/-- The minimum over everything evaluated is the minimum over the initial positions. -/
theorem upward_min (cfg : Config n d K) (hc : UpwardCfg cfg) (f : Vec d K → K)
    (hup : GrowsUpward f) (s : Opt n d K) (hf : Fresh cfg s)
    (hpos : ∀ i j, 0 ≤ s.swarm.position i j) (iters : Nat) (nproc : Option Nat)
    (env : Nat → Draw n d K) (E : List (Mat n d K × Costs n K))
    (hE : (optimize cfg (rowwise f) iters nproc env s).1.evals = E) (hlog : LogOf (rowwise f) E)
    (hne : E ≠ []) (c : XR K) (hmin : IsMinOf c (allCosts E)) (hn : 0 < n) :
    IsMinOf c (costsOf f s.swarm.position) ∧ c ≠ XR.pinf := by
  obtain ⟨hge, hhd⟩ := upward_evals cfg hc s hf (rowwise f) iters nproc env
  rw [hE] at hge hhd
  have hcost : ∀ e ∈ E, ∀ i, e.2 i = XR.fin (f (e.1 i)) := by
    intro e hm i
    obtain ⟨k, hk, rfl⟩ := List.getElem_of_mem hm
    have := hlog k hk
    unfold rowwise at this
    injection this with this
    rw [← this]
  obtain ⟨e0, rest, rfl⟩ := List.exists_cons_of_ne_nil hne
  have h0 := hhd e0 rfl
  have hfirst : ∀ i, XR.fin (f (s.swarm.position i)) ∈ allCosts (e0 :: rest) := by
    intro i
    rw [mem_allCosts]
    exact ⟨e0, by simp, i, by rw [hcost e0 (by simp), h0]⟩
  obtain ⟨m1, m2, m3⟩ := hmin
  have hlow : ∀ i, XR.lt (XR.fin (f (s.swarm.position i))) c = false := fun i => m3 _ (hfirst i)
  have hnp : c ≠ XR.pinf := by
    rintro rfl
    have := hlow ⟨0, hn⟩
    simp [XR.lt] at this
  refine ⟨⟨m1, ?_, ?_⟩, hnp⟩
  · right
    rcases m2 with h | h
    · exact absurd h hnp
    · rw [mem_allCosts] at h
      obtain ⟨e, he, i, hei⟩ := h
      rw [hcost e he] at hei
      subst hei
      have h1 := hlow i
      simp only [XR.lt, decide_eq_false_iff_not, not_lt] at h1
      have h2 := hup _ _ (hpos i) (hge e he i)
      simp only [costsOf, List.mem_map, List.mem_finRange, true_and]
      exact ⟨i, by rw [le_antisymm h2 h1]⟩
  · intro x hx
    simp only [costsOf, List.mem_map, List.mem_finRange, true_and] at hx
    obtain ⟨i, rfl⟩ := hx
    exact hlow i

/-- C89: what GlobalBestPSO (or any optimizer with the Star topology) then returns: the smallest
cost of an initial position. -/
theorem C89_star (hn : 0 < n) (cfg : Config n d K) (hk : cfg.kind.isStar) (hc : UpwardCfg cfg)
    (f : Vec d K → K) (hup : GrowsUpward f) (s : Opt n d K) (hf : Fresh cfg s)
    (hpos : ∀ i j, 0 ≤ s.swarm.position i j) (iters : Nat) (nproc : Option Nat)
    (env : Nat → Draw n d K) (s' : Opt n d K) (c : XR K) (p : Vec d K)
    (ho : optimize cfg (rowwise f) iters nproc env s = (s', .ok (c, p))) :
    IsMinOf c (costsOf f s.swarm.position) ∧ c = XR.fin (f p) := by
  obtain ⟨hlog, ⟨e, he, i, hei, hec⟩, hmin⟩ := C05_first_call hn cfg hk s hf _ iters nproc env s' c p ho
  have hec' : c = XR.fin (f p) := by
    obtain ⟨k, hkl, rfl⟩ := List.getElem_of_mem he
    have := hlog k hkl
    unfold rowwise at this
    injection this with this
    rw [← hec, ← this, ← hei]
  refine ⟨?_, hec'⟩
  refine (upward_min cfg hc f hup s hf hpos iters nproc env s'.evals (by rw [ho]) hlog
    (List.ne_nil_of_mem he) c ⟨by rw [hec']; simp, Or.inr ((mem_allCosts _ _).2 ⟨e, he, i, hec⟩),
      fun x hx => ?_⟩ hn).1
  obtain ⟨e', he', i', rfl⟩ := (mem_allCosts _ _).1 hx
  exact hmin e' he' i'

/-- C89: what LocalBestPSO (or any optimizer with another topology) then returns, if the neighbour
lists at the end cover the swarm. -/
theorem C89_covered (hn : 0 < n) (cfg : Config n d K) (hk : cfg.kind.top ≠ .star)
    (hc : UpwardCfg cfg) (f : Vec d K → K) (hup : GrowsUpward f) (s : Opt n d K)
    (hf : Fresh cfg s) (hpos : ∀ i j, 0 ≤ s.swarm.position i j) (iters : Nat) (hi : 0 < iters)
    (nproc : Option Nat) (env : Nat → Draw n d K) (s' : Opt n d K) (c : XR K) (p : Vec d K)
    (ho : optimize cfg (rowwise f) iters nproc env s = (s', .ok (c, p)))
    (hcov : (cfg.args.k = some 1 ∧ ∃ st, cfg.kind.top = .ring st) ∨
      ∃ nbr, s'.top.neighbor = some nbr ∧ ∀ j, ∃ i, j ∈ nbr i) :
    IsMinOf c (costsOf f s.swarm.position) ∧ c = XR.fin (f p) := by
  obtain ⟨E, hE, hlog, hmin, hm⟩ := C07_covered cfg hk s s' _ iters hi nproc env c p ho hcov
  rw [fresh_evals cfg s hf, List.nil_append] at hE
  have hne : E ≠ [] := by
    obtain ⟨s1, hl, hs', -⟩ := optimize_ok _ _ _ _ _ _ _ _ _ ho
    have := loop_evals_ne_nil cfg _ env iters iters hi 0 [] _ s1 hl
    rw [← hE, hs']
    exact this
  obtain ⟨h1, h2⟩ := upward_min cfg hc f hup s hf hpos iters nproc env E (by rw [ho]; exact hE) hlog
    hne c hmin hn
  refine ⟨h1, ?_⟩
  obtain ⟨e, he, i, hei, hec⟩ := hm h2
  obtain ⟨k, hkl, rfl⟩ := List.getElem_of_mem he
  have := hlog k hkl
  unfold rowwise at this
  injection this with this
  rw [← hec, ← this, ← hei]

/-- C89: the score that a search gives to a combination of hyperparameters depends only on the
initial positions drawn for it: with GlobalBestPSO, no bounds, the default clamp and an objective
that grows with the coordinates, it is the smallest cost among them, whatever the combination. -/
theorem C89_score (hn : 0 < n) (cfg : Config n d K) (hk : cfg.kind = .globalBest)
    (hcb : cfg.bounds = none) (hcc : cfg.clamp = some (fun _ => 0, fun _ => 1))
    (hctr : cfg.center = fun _ => 1) (hinit : cfg.initPos = none) (hst : cfg.vhStrategy ≠ "zero")
    (f : Vec d K → K) (hup : GrowsUpward f) (iters : Nat) (r1 r2 : InitDraw n d K) (hr : r2.Legal)
    (env : Nat → Draw n d K) (c : XR K)
    (h : generateScore cfg (rowwise f) iters r1 r2 env = .ok c) :
    IsMinOf c (costsOf f r2.pos) := by
  unfold generateScore at h
  split at h
  · cases h
  · next s hs =>
    split at h
    · cases h
    · next c' p ho =>
      cases h
      have hF : Fresh cfg s := Or.inl ⟨r1, r2, hs⟩
      have ho' : optimize cfg (rowwise f) iters none env s =
          ((optimize cfg (rowwise f) iters none env s).1, .ok (c, p)) := by
        rw [← ho]
      have hx0 : s.swarm.position = r2.pos := by
        obtain ⟨sw, hsw, rfl⟩ := construct_ok cfg r1 r2 s hs
        unfold resetSwarm createSwarm at hsw
        have hb : cfg.isBinary = false := by unfold Config.isBinary; rw [hk]
        simp only [hb, hcb, hinit, hctr, generateSwarm] at hsw
        cases hsw
        simp [mkSwarm]
      rw [← hx0]
      refine (C89_star hn cfg (by rw [hk]; trivial) ⟨by rw [hk]; simp, hcb,
        ⟨fun _ => 1, fun _ => zero_le_one, hcc⟩, hst⟩ f hup s hF (fun i j => ?_) iters none env _ c p
        ho').1
      rw [hx0]
      exact (hr.1 i j).1

/-- C89: the choice made by the search.  For every seed and every number of combinations there are
one place and one score such that every search (over any grid with that many combinations, with
any values of the options in it) that returns, returns that score and the combination at that
place. -/
theorem C89_place (hn : 0 < n) (base : Config n d K) (hk : base.kind = .globalBest)
    (hcb : base.bounds = none) (hcc : base.clamp = some (fun _ => 0, fun _ => 1))
    (hctr : base.center = fun _ => 1) (hinit : base.initPos = none)
    (hst : base.vhStrategy ≠ "zero") (hw : 0 < base.window)
    (hft : ∀ a, base.ftol = XR.fin a → a ≤ 0) (hfp : base.ftol ≠ XR.pinf) (rng : Rng n d K G)
    (hr : rng.Legal) (ext : Libs n d K) (iters : Nat) (g : G) (f : Vec d K → K)
    (hup : GrowsUpward f) (ev : Nat → ObjG n d K G) (hq : Quiet ev (rowwise f)) (maximum : Bool)
    (m : Nat) :
    ∃ (place : Nat) (score : XR K), ∀ grid : List (Opts K × TopArgs), grid.length = m → ∀ v,
      (searchG (fun o => generateScoreG (base.withOptions o) ev rng ext iters) maximum grid g).2 =
        .ok v → v.1 = score ∧ grid[place]? = some v.2 := by
  classical
  have key := fun k o => generateScoreG_read base (by rw [hk]; trivial) hw hft hfp rng ext iters
    (genBefore base rng iters g k) ev (rowwise f) hq o
  have hread := searchG_read _ (genBefore base rng iters g) _ key maximum
  obtain ⟨r2, hr2⟩ : ∃ r2 : Nat → InitDraw n d K, r2 = fun k =>
    (initRead base rng (initRead base rng (genBefore base rng iters g k)).2).1 := ⟨_, rfl⟩
  have hleg : ∀ k, (r2 k).Legal := by
    intro k
    rw [hr2]
    exact ⟨fun i j => by simp only [initRead]; rw [sampleMat_get]; exact hr _,
      fun i j => by simp only [initRead]; rw [sampleMat_get]; exact hr _⟩
  let sigma : Nat → XR K := fun k =>
    if h : ∃ c, IsMinOf c (costsOf f (r2 k).pos) then h.choose else XR.nan
  let picked := if maximum then pyMax (enumerate ((List.range m).map sigma))
    else pyMin (enumerate ((List.range m).map sigma))
  refine ⟨(picked.map Prod.fst).getD 0, (picked.map Prod.snd).getD XR.nan, ?_⟩
  intro grid hm v hv
  have hs := (hread grid).1.symm.trans hv
  unfold search at hs
  split at hs
  · cases hs
  · next log scores hsc =>
    have hscores : scores = (List.range m).map sigma := by
      have hget := scoreAll_get _ 0 grid scores (by rw [hsc])
      apply List.ext_getElem?
      intro j
      have hj := hget j
      rw [Nat.zero_add] at hj
      by_cases hjm : j < m
      · rw [List.getElem?_eq_getElem (by omega : j < grid.length)] at hj
        cases hc : scores[j]? with
        | none => rw [hc] at hj; cases hj
        | some c =>
          rw [hc] at hj
          simp only [Option.map_some, Option.some.injEq] at hj
          have hmin := C89_score hn (base.withOptions grid[j]) hk hcb hcc hctr hinit hst f hup iters
            _ (r2 j) (hleg j) _ c (by rw [hr2]; exact hj)
          have hex : ∃ c, IsMinOf c (costsOf f (r2 j).pos) := ⟨c, hmin⟩
          have hsig : sigma j = c := by
            show (if h : ∃ c, IsMinOf c (costsOf f (r2 j).pos) then h.choose else XR.nan) = c
            rw [dif_pos hex]
            exact isMinOf_unique hex.choose_spec hmin
          simp [hjm, hsig]
      · rw [List.getElem?_eq_none (by omega : grid.length ≤ j)] at hj
        have : scores[j]? = none := by
          cases hc : scores[j]? with
          | none => rfl
          | some c => rw [hc] at hj; cases hj
        rw [this]
        simp; omega
    rw [hscores] at hs
    split at hs
    · cases hs
    · next mn hmn =>
      have hpick : (if maximum = true then pyMax (enumerate ((List.range m).map sigma))
          else some mn) = picked := by
        show _ = if maximum = true then _ else _
        rw [hmn]
      rw [hpick] at hs
      cases hp : picked with
      | none => rw [hp] at hs; cases hs
      | some ic =>
        obtain ⟨idx, c⟩ := ic
        rw [hp] at hs
        dsimp only at hs
        split at hs
        · cases hs
        · next o hgo =>
          cases hs
          exact ⟨rfl, hgo⟩

/-! ### Examples -/

namespace Ex

/-- The sphere function of the documented example (single_obj.py:701-719). -/
def sumSquares (x : Vec d ℚ) : ℚ := (List.finRange d).foldl (fun a j => a + x j * x j) 0

/-- A search as documented: GlobalBestPSO without bounds, with the default clamp. -/
def searchCfg (n d : Nat) : Config n d ℚ :=
  { gcfg n d with center := fun _ => 1, clamp := some (fun _ => 0, fun _ => 1) }

/-- An objective that reads no random numbers. -/
def quietSquares (n d : Nat) : Nat → ObjG n d ℚ Nat :=
  fun k x g => (g, rowwise sumSquares k x)

/-- The outcome of a search from the seed `g`. -/
def searched (grid : List (Opts ℚ × TopArgs)) (g : Nat) : Except Err (XR ℚ × (Opts ℚ × TopArgs)) :=
  (searchG (fun o => generateScoreG ((searchCfg 2 2).withOptions o) (quietSquares 2 2)
    (squares 2 2) (libs 2 2) 4) false grid g).2

/-- The place of the returned combination of a search over two different combinations, told by the
inertia weight. -/
def searchedWeight (grid : List (Opts ℚ × TopArgs)) (g : Nat) : Option (XR ℚ × Option ℚ) :=
  match searched grid g with
  | .ok v => some (v.1, v.2.1.lookup "w")
  | _ => none

end Ex

/-- The sphere function grows upward. -/
theorem sumSquares_up : GrowsUpward (Ex.sumSquares (d := d)) := by
  intro x y h0 h
  unfold Ex.sumSquares
  have key : ∀ (l : List (Fin d)) (a b : ℚ), a ≤ b →
      l.foldl (fun a j => a + x j * x j) a ≤ l.foldl (fun a j => a + y j * y j) b := by
    intro l
    induction l with
    | nil => intro a b hab; exact hab
    | cons j l ih =>
      intro a b hab
      exact ih _ _ (add_le_add hab (mul_le_mul (h j) (h j) (h0 j) ((h0 j).trans (h j))))
  exact key _ 0 0 (le_refl _)

/-- The configuration of a search meets the hypotheses. -/
example : UpwardCfg (Ex.searchCfg 2 2) ∧ (Ex.searchCfg 2 2).kind = .globalBest ∧
    (Ex.searchCfg 2 2).center = (fun _ => 1) ∧ (Ex.searchCfg 2 2).initPos = none ∧
    0 < (Ex.searchCfg 2 2).window ∧ (Ex.searchCfg 2 2).ftol = XR.ninf ∧
    Quiet (Ex.quietSquares 2 2) (rowwise Ex.sumSquares) ∧ (Ex.squares 2 2).Legal := by
  refine ⟨⟨by simp [Ex.searchCfg, Ex.gcfg], rfl, ⟨fun _ => 1, fun _ => zero_le_one, rfl⟩,
    by simp [Ex.searchCfg, Ex.gcfg]⟩, rfl, rfl, rfl, by decide, rfl, fun k x g => ?_, fun g => ?_⟩
  · rfl
  · have : g * g % 7 < 7 := Nat.mod_lt _ (by omega)
    have h2 : ((g * g % 7 : Nat) : ℚ) < 7 := by exact_mod_cast this
    have h3 : (0 : ℚ) ≤ ((g * g % 7 : Nat) : ℚ) := Nat.cast_nonneg _
    show Unit01 (((g * g % 7 : Nat) : ℚ) / 7)
    exact ⟨by positivity, by rw [div_lt_one (by norm_num)]; exact h2⟩

/-- Two searches from the same seed over the same two combinations in opposite order: both return
the same score, and opposite combinations. -/
example : Ex.searchedWeight [Ex.slow, Ex.fast] 0 = some (.fin (1 / 49), some 2) ∧
    Ex.searchedWeight [Ex.fast, Ex.slow] 0 = some (.fin (1 / 49), some (1 / 2)) := by
  exact ⟨by decide +kernel, by decide +kernel⟩

end PySwarms
