import Verif.Model.CustomLoop
import Verif.Props.Stopping
import Verif.Props.Best
import Verif.Examples

/-!
# The documented hand-written loop is GlobalBestPSO (C62)
-/

set_option linter.unusedSectionVars false

namespace PySwarms

variable {n d : Nat} {K : Type} [Field K] [LinearOrder K] [IsStrictOrderedRing K] [Transc K]
  [FloorRing K]

/-- The objective is a function of one particle's position, applied to every particle (it may
raise), and never returns `nan`. -/
def PerParticle (f : Mat n d K → Except Err (Costs n K)) : Prop :=
  ∃ g : Vec d K → Except Err (XR K), (∀ x c, f x = .ok c ↔ ∀ i, g (x i) = .ok (c i)) ∧
    ∀ v, g v ≠ .ok XR.nan

/-- Settings under which GlobalBestPSO has no feature beyond the hand-written loop: no bounds, no
clamp, no schedule, default velocity handling, no early stopping. -/
structure Plain (cfg : Config n d K) : Prop where
  star : cfg.kind.isStar
  bounds : cfg.bounds = none
  clamp : cfg.clamp = none
  vh : cfg.vhStrategy = "unmodified"
  oh : cfg.ohStrategy = []
  ftol : ∀ a, cfg.ftol = XR.fin a → a ≤ 0
  ftol' : cfg.ftol ≠ XR.pinf

/-- What relates the personal bests to the objective at the start of an iteration. -/
def PbestOf (g : Vec d K → Except Err (XR K)) (s : Swarm n d K) : Prop :=
  ∀ i, g (s.pbestPos i) = .ok (s.pbestCost i) ∨
    (s.pbestPos i = s.position i ∧ s.pbestCost i = XR.pinf)

theorem customBest_eq (s : Swarm n d K) (t : TopState n) :
    customBest s = match (starGbest t s).2 with
      | .error e => .error e
      | .ok g => .ok { s with bestPos := g.1, bestCost := g.2 } := by
  unfold customBest npMin starGbest
  cases h : npArgmin s.pbestCost with
  | none => rfl
  | some i =>
    simp only [Option.map_some]
    by_cases hb : XR.lt (s.pbestCost i) s.bestCostVal = true
    · simp [hb]
    · simp [hb]

theorem ftolDelta_false {cfg : Config n d K} (h : Plain cfg) (x y : XR K) :
    ftolDelta cfg.ftol x y = false := by
  have := not_small h.ftol h.ftol' y x
  unfold SmallChange at this
  unfold ftolDelta
  simpa using this

theorem dequeAppend_not_all {w : Nat} (hw : 0 < w) (q : List Bool) :
    (dequeAppend w q false).all id = false := by
  unfold dequeAppend
  rw [List.all_eq_false]
  refine ⟨false, ?_, by simp⟩
  rw [List.drop_append]
  apply List.mem_append_right
  have : (q ++ [false]).length - w - q.length = 0 := by simp; omega
  rw [this]
  simp

/-- The personal bests computed from `f(pbest_pos)` are those computed from the stored costs. -/
theorem pbest_recomputed {g : Vec d K → Except Err (XR K)} (hg : ∀ v, g v ≠ .ok XR.nan)
    {s : Swarm n d K} (hp : PbestOf g s) {c pc : Costs n K} (hc : ∀ i, g (s.position i) = .ok (c i))
    (hpc : ∀ i, g (s.pbestPos i) = .ok (pc i)) :
    computePbest { s with currentCost := c, pbestCost := pc } =
      computePbest { s with currentCost := c } := by
  have hrow : ∀ i, (if XR.lt (c i) (pc i) = true then s.position i else s.pbestPos i) =
      (if XR.lt (c i) (s.pbestCost i) = true then s.position i else s.pbestPos i) ∧
      (if XR.lt (c i) (pc i) = true then c i else pc i) =
      (if XR.lt (c i) (s.pbestCost i) = true then c i else s.pbestCost i) := by
    intro i
    rcases hp i with h | ⟨h1, h2⟩
    · have : pc i = s.pbestCost i := by
        have := (hpc i).symm.trans h; simpa using this
      rw [this]; exact ⟨rfl, rfl⟩
    · have h3 : pc i = c i := by
        have h := hpc i
        rw [h1, hc i] at h
        simpa using h.symm
      rw [h3, XR.lt_irrefl, h2, h1]
      by_cases hl : XR.lt (c i) XR.pinf = true
      · simp [hl]
      · have h4 : c i = XR.pinf := by
          by_contra hne
          exact hl ((XR.lt_pinf_iff _).2 ⟨fun hn => hg _ (by rw [hc i, hn]), hne⟩)
        simp [h4]
  unfold computePbest
  dsimp only
  refine Prod.ext ?_ ?_
  · funext i j
    have := congrFun (hrow i).1 j
    by_cases h1 : XR.lt (c i) (pc i) = true <;> by_cases h2 : XR.lt (c i) (s.pbestCost i) = true <;>
      simpa [h1, h2] using this
  · funext i
    have := (hrow i).2
    by_cases h1 : XR.lt (c i) (pc i) = true <;> by_cases h2 : XR.lt (c i) (s.pbestCost i) = true <;>
      simpa [h1, h2] using this

/-- After an evaluation, the personal best costs are the values of the objective at the personal
best positions. -/
theorem pbestOf_recordEval {g : Vec d K → Except Err (XR K)} (hg : ∀ v, g v ≠ .ok XR.nan)
    {s : Opt n d K} (hp : PbestOf g s.swarm) {c : Costs n K}
    (hc : ∀ i, g (s.swarm.position i) = .ok (c i)) (i : Fin n) :
    g ((recordEval c s).swarm.pbestPos i) = .ok ((recordEval c s).swarm.pbestCost i) := by
  rw [recordEval_pbestPos, recordEval_pbestCost]
  by_cases hl : XR.lt (c i) (s.swarm.pbestCost i) = true
  · simp only [hl, if_true]; exact hc i
  · simp only [hl]
    rcases hp i with h | ⟨h1, h2⟩
    · exact h
    · have h4 : c i = XR.pinf := by
        by_contra hne
        rw [h2] at hl
        exact hl ((XR.lt_pinf_iff _).2 ⟨fun hn => hg _ (by rw [hc i, hn]), hne⟩)
      simp only [Bool.false_eq_true, if_false]
      rw [h1, h2, hc i, h4]

/-- One iteration of the optimizer and one pass of the hand-written loop do the same. -/
theorem custom_iterate {cfg : Config n d K} (hcfg : Plain cfg) (hw : 0 < cfg.window)
    {f : Mat n d K → Except Err (Costs n K)} {g : Vec d K → Except Err (XR K)}
    (hfg : ∀ x c, f x = .ok c ↔ ∀ i, g (x i) = .ok (c i)) (hg : ∀ v, g v ≠ .ok XR.nan)
    (r : Draw n d K) (iters i : Nat) (q : List Bool) (s : Opt n d K)
    (ho : s.swarm.options = cfg.options) (hp : PbestOf g s.swarm)
    (hu : s.swarm.bestCost = none ↔ s.swarm.bestPos = .empty) :
    (∃ s' e, iterate cfg f r iters i q s = (s', .error e) ∧ customStep f r s.swarm = .error e) ∨
    (∃ s' q', iterate cfg f r iters i q s = (s', .ok (.continue q')) ∧
      customStep f r s.swarm = .ok s'.swarm ∧ s'.swarm.options = cfg.options ∧
      PbestOf g s'.swarm ∧ (s'.swarm.bestCost = none ↔ s'.swarm.bestPos = .empty) ∧
      (1 ≤ d → s'.swarm.bestCost ≠ none)) := by
  unfold iterate customStep
  cases he : f s.swarm.position with
  | error e => exact Or.inl ⟨_, _, rfl, rfl⟩
  | ok c =>
    have hc := (hfg _ _).1 he
    dsimp only
    have hpc : ∃ pc, f s.swarm.pbestPos = .ok pc := by
      refine ⟨fun i => match g (s.swarm.pbestPos i) with
        | .ok x => x
        | .error _ => XR.nan, (hfg _ _).2 fun i => ?_⟩
      rcases hp i with h | ⟨h1, -⟩
      · rw [h]
      · rw [h1, hc i]
    obtain ⟨pc, hpc⟩ := hpc
    rw [hpc]
    dsimp only
    rw [pbest_recomputed hg hp hc ((hfg _ _).1 hpc)]
    have hsw : ({ s.swarm with currentCost := c, pbestCost := (computePbest { s.swarm with currentCost := c }).2, pbestPos := (computePbest { s.swarm with currentCost := c }).1 } : Swarm n d K) =
        (recordEval c s).swarm := rfl
    rw [hsw, customBest_eq _ (recordEval c s).top, callGbest_star cfg hcfg.star]
    have hpn := pbestOf_recordEval hg hp hc
    cases hgb : starGbest (recordEval c s).top (recordEval c s).swarm with
    | mk t o =>
      cases o with
      | error e => exact Or.inl ⟨_, _, rfl, rfl⟩
      | ok b =>
        dsimp only
        have hstop : (decide (¬ i < cfg.window) && (dequeAppend cfg.window q (ftolDelta cfg.ftol
            (recordBest t b (recordEval c s)).swarm.bestCostVal
            (recordEval c s).swarm.bestCostVal)).all id) = false := by
          rw [ftolDelta_false hcfg, dequeAppend_not_all hw]; simp
        rw [hstop]
        simp only [Bool.false_eq_true, if_false]
        have hb2 : ({ (recordEval c s).swarm with bestPos := b.1, bestCost := b.2 } : Swarm n d K) =
            (recordBest t b (recordEval c s)).swarm := rfl
        rw [hb2]
        have hunset : b.2 = none ↔ b.1 = .empty := by
          have h2 := congrArg Prod.snd hgb
          unfold starGbest at h2
          dsimp only at h2
          split at h2
          · simp at h2
          · split at h2
            · simp only [Except.ok.injEq] at h2
              rw [← h2]; simp
            · simp only [Except.ok.injEq] at h2
              rw [← h2]; exact hu
        have hopt : callOptions cfg iters i r (recordBest t b (recordEval c s)).swarm =
            .ok cfg.options := by
          unfold callOptions ohCall
          rw [hcfg.oh]
          cases hk : cfg.kind <;> first
            | rfl
            | (have := hcfg.star; rw [hk] at this; exact this.elim)
        have ho' : ({ (recordBest t b (recordEval c s)).swarm with options := cfg.options } : Swarm n d K) =
            (recordBest t b (recordEval c s)).swarm := by
          rw [← ho]; rfl
        unfold moveSwarm
        rw [hopt]
        dsimp only
        rw [ho']
        have hvb : velBounds cfg = none := by
          unfold velBounds
          rw [hcfg.bounds]
          cases cfg.kind <;> rfl
        rw [hvb, hcfg.clamp, hcfg.vh]
        have hvel : ∀ (sw : Swarm n d K) m, computeVelocity sw none "unmodified" m none r.r1 r.r2 =
            (m, (computeVelocity sw none "unmodified" none none r.r1 r.r2).2) := by
          intro sw m
          unfold computeVelocity vhCall
          simp only [if_true]
          cases sw.options.lookup "c1" <;> cases sw.options.lookup "c2" <;>
            cases sw.options.lookup "w" <;> try rfl
          cases sw.bestPos with
          | empty =>
            dsimp only
            split
            · rfl
            · split
              · rw [if_neg (by decide), if_neg (by decide)]
              · rfl
          | single v => rfl
          | perParticle m => rfl
        rw [hvel]
        cases hv : (computeVelocity (recordBest t b (recordEval c s)).swarm none "unmodified" none none
            r.r1 r.r2).2 with
        | error e => exact Or.inl ⟨_, _, rfl, rfl⟩
        | ok v =>
          dsimp only
          have hcp : ∀ (sw : Swarm n d K) m, callPosition cfg r m sw =
              (m, .ok fun i j => sw.position i j + sw.velocity i j) := by
            intro sw m
            unfold callPosition computePosition
            rw [hcfg.bounds]
            cases hk : cfg.kind <;> first
              | rfl
              | (have := hcfg.star; rw [hk] at this; exact this.elim)
          rw [hcp]
          refine Or.inr ⟨_, _, rfl, by simp only [computePosition]; rw [← ho]; rfl, rfl, fun i => Or.inl (hpn i), ?_, ?_⟩
          · exact hunset
          · intro hd hnone
            have hbe : b.1 = .empty := hunset.1 hnone
            have hbe' : (recordBest t b (recordEval c s)).swarm.bestPos = .empty := hbe
            unfold computeVelocity vhCall at hv
            rw [hbe'] at hv
            dsimp only at hv
            split at hv
            · split at hv
              · omega
              · split at hv
                · rw [if_neg (by decide)] at hv
                  simp at hv
                · cases hv
            · cases hv

theorem custom_loop {cfg : Config n d K} (hcfg : Plain cfg) (hw : 0 < cfg.window)
    {f : Mat n d K → Except Err (Costs n K)} {g : Vec d K → Except Err (XR K)}
    (hfg : ∀ x c, f x = .ok c ↔ ∀ i, g (x i) = .ok (c i)) (hg : ∀ v, g v ≠ .ok XR.nan)
    (env : Nat → Draw n d K) (iters m i : Nat) (q : List Bool) (s : Opt n d K)
    (ho : s.swarm.options = cfg.options) (hp : PbestOf g s.swarm)
    (hu : s.swarm.bestCost = none ↔ s.swarm.bestPos = .empty) :
    (∃ s' e, loop cfg (fun _ => f) env iters m i q s = (s', .error e) ∧
      customLoop f env m i s.swarm = .error e) ∨
    (∃ s', loop cfg (fun _ => f) env iters m i q s = (s', .ok ()) ∧
      customLoop f env m i s.swarm = .ok s'.swarm ∧
      (1 ≤ d → 1 ≤ m ∨ s.swarm.bestCost ≠ none → s'.swarm.bestCost ≠ none)) := by
  induction m generalizing i q s with
  | zero => exact Or.inr ⟨s, rfl, rfl, by simp⟩
  | succ m ih =>
    rw [loop, customLoop]
    rcases custom_iterate hcfg hw hfg hg (env i) iters i q s ho hp hu with
      ⟨s', e, h1, h2⟩ | ⟨s', q', h1, h2, h3, h4, h5, h6⟩
    · rw [h1, h2]; exact Or.inl ⟨_, _, rfl, rfl⟩
    · rw [h1, h2]
      dsimp only
      rcases ih (i + 1) q' s' h3 h4 h5 with h | ⟨s'', h7, h8, h9⟩
      · exact Or.inl h
      · exact Or.inr ⟨s'', h7, h8, fun hd _ => h9 hd (Or.inr (h6 hd))⟩

/-- C62: on the swarm of a new (or just reset) GlobalBestPSO, the hand-written loop of the tutorial
does exactly what `optimize` does: the same swarm (positions, velocities, personal bests, swarm
best) comes out, its `best_cost` is the cost that `optimize` returns, and if one of them raises an
exception then the other raises the same. -/
theorem C62_same_run (hd : 1 ≤ d) (cfg : Config n d K) (hcfg : Plain cfg) (s : Opt n d K)
    (hs : Fresh cfg s) (hw : 0 < cfg.window) (f : Mat n d K → Except Err (Costs n K))
    (hf : PerParticle f) (env : Nat → Draw n d K) (iters : Nat) (hit : 1 ≤ iters) :
    match optimize cfg (fun _ => f) iters none env s with
    | (s', .ok (c, _)) => customLoop f env iters 0 s.swarm = .ok s'.swarm ∧
        s'.swarm.bestCost = some c
    | (_, .error e) => customLoop f env iters 0 s.swarm = .error e := by
  obtain ⟨g, hfg, hg⟩ := hf
  obtain ⟨r, sw, t, a, b, p, hsw, rfl⟩ := fresh_cases cfg s hs
  have hsw' : ∃ pos vel, sw = mkSwarm pos vel cfg.options := by
    unfold resetSwarm createSwarm at hsw
    dsimp only at hsw
    split at hsw
    · cases hsw
    · cases hsw; exact ⟨_, _, rfl⟩
  obtain ⟨pos, vel, rfl⟩ := hsw'
  have hl := custom_loop hcfg hw hfg hg env iters iters 0 []
    (startState cfg none
      { swarm := mkSwarm pos vel cfg.options, top := t, bhMem := a, vhMem := b, openPools := p })
    rfl (fun i => Or.inr ⟨rfl, rfl⟩) (by simp [startState, prepare, mkSwarm])
  unfold startState at hl
  unfold optimize
  rw [if_neg (by simp)]
  dsimp only
  rcases hl with ⟨s', e, h1, h2⟩ | ⟨s', h1, h2, h3⟩
  · rw [h1]; exact h2
  · rw [h1]
    dsimp only
    have h4 := h3 hd (Or.inl hit)
    obtain ⟨c, hc⟩ := Option.ne_none_iff_exists'.1 h4
    unfold finish
    rw [hc]
    dsimp only
    cases hm : npArgmin s'.swarm.pbestCost with
    | some i => exact ⟨h2, hc⟩
    | none =>
      exfalso
      rw [npArgmin_none] at hm
      subst hm
      obtain ⟨m, rfl⟩ : ∃ m, iters = m + 1 := ⟨iters - 1, by omega⟩
      rw [customLoop] at h2
      unfold customStep customBest at h2
      have hz : ∀ c : Costs 0 K, npMin c = none := fun c => rfl
      simp only [hz] at h2
      split at h2
      · cases h2
      · next h =>
        split at h
        · cases h
        · split at h <;> cases h

/-- C62, the whole tutorial: with the default settings of GlobalBestPSO, the swarm made by
`create_swarm(n_particles, dimensions, options=my_options)` from the same random numbers is the one
of the new optimizer, so that the tutorial program and `GlobalBestPSO(...).optimize(f, iters)` do
the same. -/
theorem C62_tutorial (hd : 1 ≤ d) (options : Opts K) (init0 init : InitDraw n d K)
    (f : Mat n d K → Except Err (Costs n K)) (hf : PerParticle f) (env : Nat → Draw n d K)
    (iters : Nat) (hit : 1 ≤ iters) :
    ∃ s, construct { kind := .globalBest, options := options, center := fun _ => 1 } init0 init =
        .ok s ∧
      match optimize { kind := .globalBest, options := options, center := fun _ => 1 }
        (fun _ => f) iters none env s with
      | (s', .ok (c, _)) => customRun f options init env iters = .ok s'.swarm ∧
          s'.swarm.bestCost = some c
      | (_, .error e) => customRun f options init env iters = .error e := by
  refine ⟨_, rfl, ?_⟩
  have hF : Fresh ({ kind := .globalBest, options := options, center := fun _ => 1 } : Config n d K)
      _ := Or.inl ⟨init0, init, rfl⟩
  have hP : Plain ({ kind := .globalBest, options := options, center := fun _ => 1 } :
      Config n d K) := ⟨trivial, rfl, rfl, rfl, rfl, by simp, by simp⟩
  have h := C62_same_run hd _ hP _ hF
    (by simp [Config.window]) f hf env iters hit
  exact h

/-- The hypotheses hold of the sphere function (a per-particle objective without `nan`) … -/
example : PerParticle (Ex.sphere 3 2 0) :=
  ⟨fun v => .ok (.fin (((List.finRange 2).map fun j => v j * v j).sum)),
    fun x c => by
      constructor
      · intro h i
        have := congrArg (fun o : Except Err (Costs 3 ℚ) => match o with
          | .ok c => some (c i)
          | .error _ => none) h
        simp only [Ex.sphere, Option.some.injEq] at this
        rw [← this]
      · intro h
        unfold Ex.sphere
        congr 1
        funext i
        have := h i
        simpa using this,
    fun v => by simp⟩

/-- … and the run of the tutorial really moves the swarm: three passes, with a best cost that gets
better. -/
example :
    (match customRun (Ex.sphere 3 2 0) Ex.opts (Ex.init 3 2) (fun _ => Ex.draw 3 2) 1,
        customRun (Ex.sphere 3 2 0) Ex.opts (Ex.init 3 2) (fun _ => Ex.draw 3 2) 3 with
     | .ok s1, .ok s3 => decide (s1.position 1 0 ≠ s3.position 1 0) &&
        decide (s1.position 1 0 ≠ 1 / 4)
     | _, _ => false) = true := by decide +kernel

/-- A one-dimensional objective that is `nan` at 0 and `x²` elsewhere. -/
def nanAtZero (n : Nat) : Mat n 1 ℚ → Except Err (Costs n ℚ) := fun x =>
  .ok fun i => if x i 0 = 0 then XR.nan else .fin (x i 0 * x i 0)

/-- C62, the assumption on `nan` is needed: where `optimize` simply skips a `nan` cost, the tutorial
loop loses the swarm best to it and raises. -/
theorem C62_nan_differs :
    (match construct (Ex.gcfg 2 1) (Ex.init 2 1) (Ex.init 2 1) with
     | .error _ => false
     | .ok s => (match optimize (Ex.gcfg 2 1) (fun _ => nanAtZero 2) 2 none
          (fun _ => Ex.draw 2 1) s with
        | (_, .ok _) => true
        | _ => false) &&
        (match customLoop (nanAtZero 2) (fun _ => Ex.draw 2 1) 2 0 s.swarm with
        | .error e => decide (e = .valueError)
        | .ok _ => false)) = true := by decide +kernel

end PySwarms
