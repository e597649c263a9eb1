import Verif.Lemmas.FixedParam
import Verif.Props.Irrelevant
import Verif.Props.NanInit
import Verif.Props.SchedFloat

/-!
# C107: fixing a parameter by equal bounds

Nothing checks `lb < ub` (pyswarms/base/base_single.py:93-124), so a user may fix a parameter by giving
it equal bounds.
-/

set_option linter.unusedSectionVars false

namespace PySwarms

variable {n d e : Nat} {K : Type} [Field K] [LinearOrder K] [IsStrictOrderedRing K] [Transc K]
  [FloorRing K]

/-! ## Specification -/

/-- The inertia weights used by a call of `iters` iterations all satisfy `P`. -/
def InertiaIs (cfg : Config n d K) (iters : Nat) (env : Nat → Draw n d K) (P : K → Prop) : Prop :=
  ∀ (t : Nat) o w, ohCall cfg.ohStrategy cfg.options
      { iternow := some (t : K), itermax := some (iters : K) } (env t).oh = .ok o →
    o.lookup "w" = some w → P w

/-- The objective `ev'` of the free parameters `ι` is `ev` with the others at their fixed values; costs
are below infinity. -/
structure EvFilled (b : Bounds d K) (ι : Fin e → Fin d) (ev : Nat → Mat n d K → Except Err (Costs n K))
    (ev' : Nat → Mat n e K → Except Err (Costs n K)) : Prop where
  filled : ∀ k x, (∀ i j, (∀ j', ι j' ≠ j) → x i j = b.1 j) → ev k x = ev' k (keepM ι x)
  finite : ∀ k y c, ev' k y = .ok c → ∀ i, XR.lt (c i) XR.pinf = true

/-- All particles sit at one of two places. -/
def AtTwoPlaces (x : Mat n d K) : Prop := ∃ p p', ∀ i, x i = p ∨ x i = p'

/-- The same call for both optimizers. -/
inductive OpFilled (b : Bounds d K) (ι : Fin e → Fin d) : Op n d K → Op n e K → Prop
  | optimize {ev ev' iters nproc env env'} (h : EvFilled b ι ev ev')
      (hl : ∀ i, (env i).Legal) (he : ∀ i, DrawKeep ι (env i) (env' i)) :
      OpFilled b ι (.optimize ev iters nproc env) (.optimize ev' iters nproc env')
  | reset {r r'} (hl : r.Legal) (h : InitKeep ι r r') : OpFilled b ι (.reset r) (.reset r')

/-! ## Helper lemmas -/

theorem callOptions_call {cfg : Config n d K} (hk : cfg.kind ≠ .binary) (iters i : Nat)
    (r : Draw n d K) (s : Swarm n d K) : callOptions cfg iters i r s =
      ohCall cfg.ohStrategy cfg.options
        { iternow := some (i : K), itermax := some (iters : K) } r.oh := by
  unfold callOptions; cases hkk : cfg.kind <;> first | rfl | exact absurd hkk hk

/-- What an iteration that goes on has done. -/
theorem continued {cfg : Config n d K} {b : Bounds d K} (hk : cfg.kind ≠ .binary)
    (hcb : cfg.bounds = some b) (hvh : cfg.vhStrategy ∈ ["unmodified", "invert", "zero"])
    (hcl : cfg.clamp = none) {ev : Mat n d K → Except Err (Costs n K)} {r : Draw n d K}
    {iters t : Nat} {q q' : List Bool} {s s' : Opt n d K} (hs : PinnedIn b s)
    (h : iterate cfg ev r iters t q s = (s', .ok (.continue q'))) :
    ∃ o w x, ohCall cfg.ohStrategy cfg.options
        { iternow := some (t : K), itermax := some (iters : K) } r.oh = .ok o ∧
      o.lookup "w" = some w ∧
      (∀ j, b.1 j = b.2 j → ∀ i, s'.swarm.velocity i j = w * s.swarm.velocity i j ∧
        x i j = b.1 j + w * s.swarm.velocity i j) ∧
      bhCall cfg.bhStrategy s.bhMem b r.bh x = (s'.bhMem, .ok s'.swarm.position) ∧
      ∃ c, s'.evals = s.evals ++ [(s.swarm.position, c)] := by
  have hc := iterate_cases cfg ev r iters t q s
  rw [h] at hc
  dsimp only at hc
  cases hc with
  | moved c tp g _ hev hg hns hm =>
    have hp1 := (hs.recordEval c).recordBest tp (callGbest_from hg)
    have hmc := moveSwarm_cases cfg r iters t (recordBest tp g (recordEval c s))
    rw [hm] at hmc
    dsimp only at hmc
    cases hmc with
    | ok o vm v bm p ho hv hp =>
      rw [callOptions_call hk] at ho
      rw [callPosition_bounds hk hcb] at hp
      dsimp only at hp
      have key : ∀ j, b.1 j = b.2 j → ∃ w, o.lookup "w" = some w ∧
          ∀ i, v i j = w * s.swarm.velocity i j := fun j hj =>
        fixed_velocity hk hcb hvh hcl hp1 hj hv
      obtain ⟨c1, c2, w, -, -, hw, -⟩ := computeVelocity_ok hv
      refine ⟨o, w, _, ho, hw, fun j hj i => ?_, hp, c, rfl⟩
      obtain ⟨w', hw', hv'⟩ := key j hj
      rw [show w' = w from Option.some.inj (hw'.symm.trans hw)] at hv'
      refine ⟨hv' i, ?_⟩
      show s.swarm.position i j + v i j = _
      rw [hv' i, Bounds.fixed_eq hj (hs.all.position i j)]

/-- Objectives that agree on the positions met give the same run. -/
theorem loop_agree (cfg : Config n d K) (ev ev2 : Nat → Mat n d K → Except Err (Costs n K))
    (env : Nat → Draw n d K) (iters : Nat) (J : Opt n d K → Prop)
    (hiter : ∀ i q s, J s → J (iterate cfg (ev i) (env i) iters i q s).1)
    (heq : ∀ i s, J s → ev i s.swarm.position = ev2 i s.swarm.position)
    (m i : Nat) (q : List Bool) (s : Opt n d K) (hs : J s) :
    loop cfg ev env iters m i q s = loop cfg ev2 env iters m i q s := by
  induction m generalizing i q s with
  | zero => rfl
  | succ m ih =>
    have h1 := hiter i q s hs
    have h2 : iterate cfg (ev2 i) (env i) iters i q s = iterate cfg (ev i) (env i) iters i q s := by
      unfold iterate; rw [heq i s hs]
    rw [loop, loop, h2]
    generalize iterate cfg (ev i) (env i) iters i q s = o at h1 ⊢
    obtain ⟨s', e | f⟩ := o
    · rfl
    · cases f with
      | stop => rfl
      | «continue» q' => exact ih _ _ _ h1

theorem optimize_agree (cfg : Config n d K) (ev ev2 : Nat → Mat n d K → Except Err (Costs n K))
    (env : Nat → Draw n d K) (iters : Nat) (nproc : Option Nat) (J : Opt n d K → Prop)
    (hiter : ∀ i q s, J s → J (iterate cfg (ev i) (env i) iters i q s).1)
    (heq : ∀ i s, J s → ev i s.swarm.position = ev2 i s.swarm.position)
    (s : Opt n d K) (hs : J (startState cfg nproc s)) :
    optimize cfg ev iters nproc env s = optimize cfg ev2 iters nproc env s := by
  have := loop_agree cfg ev ev2 env iters J hiter heq iters 0 [] _ hs
  unfold optimize
  dsimp only
  rw [show loop cfg ev env iters iters 0 [] { prepare cfg s with
      openPools := s.openPools + (if nproc.isSome then 1 else 0) } = _ from this]
  rfl

/-- What an iteration has done when it ends, however it ends. -/
theorem fixed_step {cfg : Config n d K} {b : Bounds d K} (hk : cfg.kind ≠ .binary)
    (hcb : cfg.bounds = some b) (hvh : cfg.vhStrategy ∈ ["unmodified", "invert", "zero"])
    (hcl : cfg.clamp = none) (ev : Mat n d K → Except Err (Costs n K)) (r : Draw n d K)
    (iters t : Nat) (q : List Bool) {s : Opt n d K} (hs : PinnedIn b s) :
    let s' := (iterate cfg ev r iters t q s).1
    ((∃ new, new.length ≤ 1 ∧ s'.evals = s.evals ++ new ∧ ∀ e ∈ new, e.1 = s.swarm.position) ∧
      s'.swarm.velocity = s.swarm.velocity ∧ s'.swarm.position = s.swarm.position ∧
      s'.bhMem = s.bhMem) ∨
    ∃ o w x c, ohCall cfg.ohStrategy cfg.options
        { iternow := some (t : K), itermax := some (iters : K) } r.oh = .ok o ∧
      o.lookup "w" = some w ∧
      (∀ j, b.1 j = b.2 j → ∀ i, s'.swarm.velocity i j = w * s.swarm.velocity i j ∧
        x i j = b.1 j + w * s.swarm.velocity i j) ∧
      s'.evals = s.evals ++ [(s.swarm.position, c)] ∧
      ((∃ e, bhCall cfg.bhStrategy s.bhMem b r.bh x = (s'.bhMem, .error e) ∧
          s'.swarm.position = s.swarm.position) ∨
        bhCall cfg.bhStrategy s.bhMem b r.bh x = (s'.bhMem, .ok s'.swarm.position)) := by
  have hmv : ∀ c tp g, callGbest cfg r.oracle (recordEval c s).top (recordEval c s).swarm = (tp, .ok g) →
      let s' := (moveSwarm cfg r iters t (recordBest tp g (recordEval c s))).1
      (s'.evals = s.evals ++ [(s.swarm.position, c)] ∧
        s'.swarm.velocity = s.swarm.velocity ∧ s'.swarm.position = s.swarm.position ∧
        s'.bhMem = s.bhMem) ∨
      ∃ o w x, ohCall cfg.ohStrategy cfg.options
          { iternow := some (t : K), itermax := some (iters : K) } r.oh = .ok o ∧
        o.lookup "w" = some w ∧
        (∀ j, b.1 j = b.2 j → ∀ i, s'.swarm.velocity i j = w * s.swarm.velocity i j ∧
          x i j = b.1 j + w * s.swarm.velocity i j) ∧
        s'.evals = s.evals ++ [(s.swarm.position, c)] ∧
        ((∃ e, bhCall cfg.bhStrategy s.bhMem b r.bh x = (s'.bhMem, .error e) ∧
            s'.swarm.position = s.swarm.position) ∨
          bhCall cfg.bhStrategy s.bhMem b r.bh x = (s'.bhMem, .ok s'.swarm.position)) := by
    intro c tp g hg
    have hp1 := (hs.recordEval c).recordBest tp (callGbest_from hg)
    have hmc := moveSwarm_cases cfg r iters t (recordBest tp g (recordEval c s))
    have main : ∀ (o : Opts K) (vm : Option (Mat n d K)) (v : Mat n d K),
        computeVelocity { (recordBest tp g (recordEval c s)).swarm with options := o } cfg.clamp
          cfg.vhStrategy s.vhMem (velBounds cfg) r.r1 r.r2 = (vm, .ok v) →
        ∃ w, o.lookup "w" = some w ∧ ∀ j, b.1 j = b.2 j → ∀ i,
          v i j = w * s.swarm.velocity i j ∧
          s.swarm.position i j + v i j = b.1 j + w * s.swarm.velocity i j := by
      intro o vm v hv
      obtain ⟨c1, c2, w, -, -, hw, -⟩ := computeVelocity_ok hv
      refine ⟨w, hw, fun j hj i => ?_⟩
      obtain ⟨w', hw', hv'⟩ := fixed_velocity hk hcb hvh hcl hp1 hj hv
      have hv' := hv' i
      rw [show w' = w from Option.some.inj (hw'.symm.trans hw)] at hv'
      refine ⟨hv', ?_⟩
      rw [hv', Bounds.fixed_eq hj (hs.all.position i j)]
      rfl
    dsimp only
    generalize (moveSwarm cfg r iters t (recordBest tp g (recordEval c s))).1 = s' at hmc ⊢
    generalize (moveSwarm cfg r iters t (recordBest tp g (recordEval c s))).2 = out at hmc
    cases hmc with
    | optError e h => exact .inl ⟨rfl, rfl, rfl, rfl⟩
    | velError o vm e h hv => exact .inl ⟨rfl, rfl, rfl, rfl⟩
    | posError o vm v bm e ho hv hp =>
      rw [callOptions_call hk] at ho
      rw [callPosition_bounds hk hcb] at hp
      obtain ⟨w, hw, hx⟩ := main o vm v hv
      exact .inr ⟨o, w, _, ho, hw, hx, rfl, .inl ⟨e, hp, rfl⟩⟩
    | ok o vm v bm p ho hv hp =>
      rw [callOptions_call hk] at ho
      rw [callPosition_bounds hk hcb] at hp
      obtain ⟨w, hw, hx⟩ := main o vm v hv
      exact .inr ⟨o, w, _, ho, hw, hx, rfl, .inr hp⟩
  have hc := iterate_cases cfg ev r iters t q s
  dsimp only
  generalize (iterate cfg ev r iters t q s).1 = s' at hc ⊢
  generalize (iterate cfg ev r iters t q s).2 = out at hc
  have one : ∀ c : Costs n K, ∃ new, new.length ≤ 1 ∧
      s.evals ++ [(s.swarm.position, c)] = s.evals ++ new ∧ ∀ e ∈ new, e.1 = s.swarm.position :=
    fun c => ⟨[(s.swarm.position, c)], le_refl _, rfl, by simp⟩
  have fin : ∀ c tp g, callGbest cfg r.oracle (recordEval c s).top (recordEval c s).swarm =
      (tp, .ok g) → s' = (moveSwarm cfg r iters t (recordBest tp g (recordEval c s))).1 → _ :=
    fun c tp g hg he => (he ▸ hmv c tp g hg)
  cases hc with
  | evalError e h => exact .inl ⟨⟨[], by simp, by simp, by simp⟩, rfl, rfl, rfl⟩
  | gbestError c tp e h hg => exact .inl ⟨one c, rfl, rfl, rfl⟩
  | stop c tp g h hg hi hq => exact .inl ⟨one c, rfl, rfl, rfl⟩
  | moveError c tp g _ e h hg hns hm =>
    rcases fin c tp g hg (by rw [hm]) with ⟨h1, h2⟩ | ⟨o, w, x, h1⟩
    · exact .inl ⟨h1 ▸ one c, h2⟩
    · exact .inr ⟨o, w, x, c, h1⟩
  | moved c tp g _ h hg hns hm =>
    rcases fin c tp g hg (by rw [hm]) with ⟨h1, h2⟩ | ⟨o, w, x, h1⟩
    · exact .inl ⟨h1 ▸ one c, h2⟩
    · exact .inr ⟨o, w, x, c, h1⟩

/-- `shrink` takes back the whole step of a particle that leaves a fixed dimension. -/
theorem shrink_takes_back {b : Bounds d K} {m x y : Mat n d K} {mem' : Option (Mat n d K)}
    {r : BHDraw d K} (hm : InBox b m) {j : Fin d} (hj : b.1 j = b.2 j) {i : Fin n}
    (hx : x i j ≠ b.1 j) (h : bhCall "shrink" (some m) b r x = (mem', .ok y)) :
    mem' = some y ∧ y i = m i := by
  obtain ⟨z, h1, h2⟩ := bhShrink_spec (Nat.pos_of_ne_zero fun h0 => by subst h0; exact j.elim0) hm x
  obtain ⟨z', h1', h3⟩ :=
    bhShrink_inBox (Nat.pos_of_ne_zero fun h0 => by subst h0; exact j.elim0) hm x
  rw [bhCall, if_neg (by decide), if_neg (by decide), if_pos rfl, h1] at h
  rw [h1] at h1'
  cases h1'
  cases h
  refine ⟨rfl, ?_⟩
  have hout : ∃ j, x i j < b.1 j ∨ b.2 j < x i j := by
    refine ⟨j, ?_⟩
    rw [← hj]
    exact lt_or_gt_of_ne hx
  obtain ⟨t, -, -, h5, -, -⟩ := (h2 i).2 hout
  have e1 := h5 j
  rw [Bounds.fixed_eq hj (h3 i j), Bounds.fixed_eq hj (hm i j)] at e1
  have e2 : t * (x i j - b.1 j) = 0 := by linarith
  rcases mul_eq_zero.1 e2 with h0 | h0
  · funext k; rw [h5 k, h0]; ring
  · exact absurd (sub_eq_zero.1 h0) hx

theorem optimize_evals (cfg : Config n d K) (ev : Nat → Mat n d K → Except Err (Costs n K))
    (iters : Nat) (nproc : Option Nat) (env : Nat → Draw n d K) (s : Opt n d K) :
    (optimize cfg ev iters nproc env s).1.evals = s.evals ∨
    (optimize cfg ev iters nproc env s).1.evals =
      (loop cfg ev env iters iters 0 [] (startState cfg nproc s)).1.evals := by
  have hc := optimize_cases cfg ev iters nproc env s
  generalize (optimize cfg ev iters nproc env s).1 = s' at hc ⊢
  generalize (optimize cfg ev iters nproc env s).2 = o at hc
  cases hc with
  | badPool h => exact .inl rfl
  | loopError s1 e hp h => rw [h]; exact .inr rfl
  | finishError s1 e hp h hf => rw [h]; exact .inr rfl
  | done r hp s1 h hf => rw [h]; exact .inr rfl

/-! ## Theorems -/

/-- **C107** (the value is kept).  With any boundary strategy other than `periodic` and `reflective`,
whatever is done with the optimizer, a parameter with equal bounds has this value in every position
that is evaluated, recorded or remembered, and the other parameters stay inside their bounds. -/
theorem C107_kept (cfg : Config n d K) (b : Bounds d K) (hk : cfg.kind ≠ .binary)
    (hcb : cfg.bounds = some b) (hb : WeakBounds b)
    (hinit : cfg.initPos.isSome ∨ cfg.center = fun _ => 1)
    (_hst : cfg.bhStrategy ∈ ["nearest", "random", "intermediate", "shrink"]) (s : Opt n d K)
    (hs : ReachableLegal cfg s) :
    (InBox b s.swarm.position ∧ InBox b s.swarm.pbestPos ∧ (∀ e ∈ s.evals, InBox b e.1) ∧
      ∀ x ∈ s.posHistory, InBox b x) ∧
    ∀ j, b.1 j = b.2 j → (∀ i, s.swarm.position i j = b.1 j) ∧ (∀ i, s.swarm.pbestPos i j = b.1 j) ∧
      (∀ e ∈ s.evals, ∀ i, e.1 i j = b.1 j) ∧ ∀ x ∈ s.posHistory, ∀ i, x i j = b.1 j := by
  obtain ⟨⟨h1, h2, h3, h4⟩, -⟩ := pinned_reachable hk hcb hb hinit hs
  exact ⟨⟨h1, h2, h3, h4⟩, fun j hj => ⟨fun i => Bounds.fixed_eq hj (h1 i j),
    fun i => Bounds.fixed_eq hj (h2 i j), fun e he i => Bounds.fixed_eq hj (h3 e he i j),
    fun x hx i => Bounds.fixed_eq hj (h4 x hx i j)⟩⟩

/-- **C107** (the handlers go on).  The same four strategies never fail on such bounds. -/
theorem C107_handlers_return (strategy : String)
    (hst : strategy ∈ ["nearest", "random", "intermediate", "shrink"]) (hd : 0 < d) (b : Bounds d K)
    (m x : Mat n d K) (hm : InBox b m) (r : BHDraw d K) :
    ∃ mem' y, bhCall strategy (some m) b r x = (mem', .ok y) := by
  simp only [List.mem_cons, List.not_mem_nil, or_false] at hst
  rcases hst with rfl | rfl | rfl | rfl
  · exact ⟨_, _, rfl⟩
  · exact ⟨_, _, rfl⟩
  · exact ⟨_, _, rfl⟩
  · obtain ⟨z, h1, -⟩ := bhShrink_inBox hd hm x
    exact ⟨_, z, by rw [← h1]; rfl⟩

/-- **C107** (`nearest` and `intermediate` are right).  Let all parameters outside `ι` be fixed by equal
bounds.  With `nearest` or `intermediate`, a Star or Random topology and `unmodified` or `adjust`
velocities, the optimizer for all parameters is the optimizer for the parameters `ι` with the fixed
values filled in: same constructions, and after any sequence of calls the same costs, histories,
positions, velocities and bests of those parameters, and the same outcome of every further call. -/
theorem C107_free_parameters (cfg : Config n d K) (hcfg : cfg.Coordinatewise)
    (b : Bounds d K)
    (hcb : cfg.bounds = some b) (hb : WeakBounds b)
    (hinit : cfg.initPos.isSome ∨ cfg.center = fun _ => 1) (ι : Fin e → Fin d)
    (hι : ∀ j, (∀ j', ι j' ≠ j) → b.1 j = b.2 j)
    (r1 r2 : InitDraw n d K) (r1' r2' : InitDraw n e K) (hr2 : r2.Legal) (h1 : InitKeep ι r1 r1')
    (h2 : InitKeep ι r2 r2') (s0 : Opt n d K) (hc : construct cfg r1 r2 = .ok s0) :
    ∃ s0', construct (cfg.keep ι) r1' r2' = .ok s0' ∧
      ∀ ops ops', List.Forall₂ (OpFilled b ι) ops ops' →
        Restricts ι (runOps cfg s0 ops) (runOps (cfg.keep ι) s0' ops') ∧
        ∀ ev ev' iters nproc env env', EvFilled b ι ev ev' → (∀ i, (env i).Legal) →
          (∀ i, DrawKeep ι (env i) (env' i)) →
          (optimize (cfg.keep ι) ev' iters nproc env' (runOps (cfg.keep ι) s0' ops')).2 =
            (optimize cfg ev iters nproc env (runOps cfg s0 ops)).2.map
              fun v => (v.1, fun j => v.2 (ι j)) := by
  have hk : cfg.kind ≠ .binary := by
    rcases hcfg.kind with h | h | ⟨st, h⟩ <;> rw [h] <;> intro h' <;> cases h'
  obtain ⟨s0', hc', hrest⟩ := C82_ignored_parameters cfg hcfg ι r1 r2 r1' r2' h1 h2 s0 hc
  refine ⟨s0', hc', ?_⟩
  obtain ⟨sw, hsw, rfl⟩ := construct_ok cfg r1 r2 s0 hc
  have hf := pinned_fresh hk hcb hb r2 hr2 hinit sw hsw
  have hp0 : Pinned b ({ swarm := sw } : Opt n d K) := ⟨⟨hf.1, hf.2.1, by simp, by simp⟩, hf.2.2⟩
  -- the objective that ignores the fixed parameters
  have hopt : ∀ (s : Opt n d K), Pinned b s → ∀ ev ev', EvFilled b ι ev ev' →
      ∀ iters nproc (env : Nat → Draw n d K), (∀ i, (env i).Legal) →
      optimize cfg ev iters nproc env s =
        optimize cfg (fun k x => ev' k (keepM ι x)) iters nproc env s := by
    intro s hs ev ev' hev iters nproc env hl
    exact optimize_agree cfg ev _ env iters nproc (PinnedIn b)
      (fun i q s hs => hs.iterate hk hcb hb (ev i) (hl i) iters i q)
      (fun i s hs => hev.filled i _ fun i' j hj =>
        Bounds.fixed_eq (hι j hj) (hs.all.position i' j)) s (hs.start hk nproc)
  have hkeep : ∀ ev ev', EvFilled b ι ev ev' → EvKeep (n := n) ι (fun k x => ev' k (keepM ι x)) ev' :=
    fun ev ev' h => ⟨fun _ _ => rfl, fun k x c hx => h.finite k _ c hx⟩
  -- replace the operations
  have hops : ∀ ops ops', List.Forall₂ (OpFilled b ι) ops ops' → ∀ s, Pinned b s →
      Pinned b (runOps cfg s ops) ∧
      ∃ ops2, List.Forall₂ (OpKeep ι) ops2 ops' ∧ runOps cfg s ops2 = runOps cfg s ops := by
    intro ops ops' ho
    induction ho with
    | nil => exact fun s hs => ⟨hs, [], .nil, rfl⟩
    | cons hop _ ih =>
      intro s hs
      cases hop with
      | optimize hev hl he =>
        next ev ev' iters nproc env env' =>
        obtain ⟨a, ops2, h3, h4⟩ := ih _ (pinned_step hk hcb hb hinit r2 sw hsw s
          (.optimize ev iters nproc env) hl hs)
        refine ⟨a, .optimize (fun k x => ev' k (keepM ι x)) iters nproc env :: ops2,
          .cons (.optimize (hkeep ev ev' hev) he) h3, ?_⟩
        show runOps cfg (stepOp cfg s _) ops2 = runOps cfg (stepOp cfg s _) _
        rw [← h4]
        simp only [stepOp]
        rw [hopt s hs ev ev' hev iters nproc env hl]
      | reset hl hr =>
        next r r' =>
        obtain ⟨a, ops2, h3, h4⟩ := ih _ (pinned_step hk hcb hb hinit r2 sw hsw s
          (.reset r) hl hs)
        exact ⟨a, .reset r :: ops2, .cons (.reset hr) h3, h4⟩
  intro ops ops' ho
  obtain ⟨hp, ops2, h3, h4⟩ := hops ops ops' ho _ hp0
  obtain ⟨h5, h6⟩ := hrest ops2 ops' h3
  rw [h4] at h5 h6
  refine ⟨h5, fun ev ev' iters nproc env env' hev hl he => ?_⟩
  rw [h6 _ ev' iters nproc env env' (hkeep ev ev' hev) he, hopt _ hp ev ev' hev iters nproc env hl]

/-- **C107** (`shrink` freezes).  With `shrink`, a particle whose velocity in a fixed dimension is not
zero does not move any more, in any dimension, as long as the inertia weight is not zero: it is
evaluated at the same place for ever. -/
theorem C107_shrink_frozen (cfg : Config n d K) (b : Bounds d K) (hk : cfg.kind ≠ .binary)
    (hcb : cfg.bounds = some b) (hb : WeakBounds b)
    (hinit : cfg.initPos.isSome ∨ cfg.center = fun _ => 1) (hst : cfg.bhStrategy = "shrink")
    (hvh : cfg.vhStrategy ∈ ["unmodified", "invert", "zero"]) (hcl : cfg.clamp = none)
    (s : Opt n d K) (hs : ReachableLegal cfg s) (j : Fin d) (hj : b.1 j = b.2 j) (i : Fin n)
    (hv : s.swarm.velocity i j ≠ 0) (ev : Nat → Mat n d K → Except Err (Costs n K)) (iters : Nat)
    (nproc : Option Nat) (env : Nat → Draw n d K) (henv : ∀ t, (env t).Legal)
    (hw : InertiaIs cfg iters env (· ≠ 0)) :
    let s' := (optimize cfg ev iters nproc env s).1
    s'.swarm.position i = s.swarm.position i ∧ s'.swarm.velocity i j ≠ 0 ∧
      ∃ new, s'.evals = s.evals ++ new ∧ ∀ e ∈ new, e.1 i = s.swarm.position i := by
  have hp := pinned_reachable hk hcb hb hinit hs
  have key := optimize_inv2 cfg ev iters nproc env
    (fun z => Pinned b z ∧ z.swarm.position i = s.swarm.position i ∧ z.swarm.velocity i j ≠ 0 ∧
      ∃ new, z.evals = s.evals ++ new ∧ ∀ e ∈ new, e.1 i = s.swarm.position i)
    (fun z => (PinnedIn b z ∧ ∃ m, z.bhMem = some m ∧ m i = s.swarm.position i) ∧
      z.swarm.position i = s.swarm.position i ∧ z.swarm.velocity i j ≠ 0 ∧
      ∃ new, z.evals = s.evals ++ new ∧ ∀ e ∈ new, e.1 i = s.swarm.position i)
    ?_ ?_ ?_ ?_ s ⟨hp, rfl, hv, [], by simp, by simp⟩
  · exact key.2
  · rintro z ⟨h1, h2, h3, h4⟩
    refine ⟨⟨h1.start hk nproc, z.swarm.position, ?_, h2⟩, h2, h3, h4⟩
    unfold startState prepare
    dsimp only
    cases hkk : cfg.kind <;> first | rfl | exact absurd hkk hk
  · rintro t q z ⟨⟨h1, m, hm, hmi⟩, h2, h3, new, h4, h5⟩
    have hnext := h1.iterate hk hcb hb (ev t) (henv t) iters t q
    have hmem := h1.mem
    rw [hm] at hmem
    obtain ⟨m', hm', hin⟩ := hmem
    cases hm'
    rcases fixed_step hk hcb hvh hcl (ev t) (env t) iters t q h1 with
      ⟨⟨new', -, h6, h7⟩, hvel, hpos, hbm⟩ | ⟨o, w, x, c, ho, hw', hx, hev, hbh⟩
    · refine ⟨⟨hnext, m, by rw [hbm, hm], hmi⟩, by rw [hpos, h2], by rw [hvel]; exact h3,
        new ++ new', by rw [h6, h4, List.append_assoc], fun e he => ?_⟩
      rcases List.mem_append.1 he with he | he
      · exact h5 e he
      · rw [h7 e he, h2]
    · have hwne := hw t o w ho hw'
      have hxne : x i j ≠ b.1 j := by
        rw [(hx j hj i).2]
        intro h0
        exact mul_ne_zero hwne h3 (by linarith)
      have hv' : (iterate cfg (ev t) (env t) iters t q z).1.swarm.velocity i j ≠ 0 := by
        rw [(hx j hj i).1]; exact mul_ne_zero hwne h3
      have hev' : ∃ new, (iterate cfg (ev t) (env t) iters t q z).1.evals = s.evals ++ new ∧
          ∀ e ∈ new, e.1 i = s.swarm.position i := by
        refine ⟨new ++ [(z.swarm.position, c)], by rw [hev, h4, List.append_assoc], fun e he => ?_⟩
        rcases List.mem_append.1 he with he | he
        · exact h5 e he
        · rw [List.mem_singleton.1 he]; exact h2
      rw [hm, hst] at hbh
      rcases hbh with ⟨e, hbh, hpos⟩ | hbh
      · obtain ⟨y, hy, -⟩ :=
          bhShrink_inBox (Nat.pos_of_ne_zero fun h0 => by subst h0; exact j.elim0) hin x
        rw [bhCall, if_neg (by decide), if_neg (by decide), if_pos rfl, hy] at hbh
        cases (Prod.mk.inj hbh).2
      · obtain ⟨e1, e2⟩ := shrink_takes_back hin hj hxne hbh
        exact ⟨⟨hnext, _, e1, by rw [e2, hmi]⟩, by rw [e2, hmi], hv', hev'⟩
  · rintro z c ⟨⟨h1, -⟩, h2⟩
    exact ⟨⟨⟨h1.1.1.1, h1.1.1.2, h1.1.1.3, h1.1.1.4⟩, h1.1.2⟩, h2⟩
  · rintro z a c ⟨h1, h2⟩
    exact ⟨⟨⟨h1.1.1, h1.1.2, h1.1.3, h1.1.4⟩, h1.2⟩, h2⟩

/-- **C107** (`random` collapses).  With `random`, if all particles have a velocity other than zero in a
fixed dimension, as long as the inertia weight is not zero the whole swarm sits at two random places (or
one) at every evaluation of the call but the first. -/
theorem C107_random_collapses (cfg : Config n d K) (b : Bounds d K) (hk : cfg.kind ≠ .binary)
    (hcb : cfg.bounds = some b) (hb : WeakBounds b)
    (hinit : cfg.initPos.isSome ∨ cfg.center = fun _ => 1) (hst : cfg.bhStrategy = "random")
    (hvh : cfg.vhStrategy ∈ ["unmodified", "invert", "zero"]) (hcl : cfg.clamp = none)
    (s : Opt n d K) (hs : ReachableLegal cfg s) (j : Fin d) (hj : b.1 j = b.2 j)
    (hv : ∀ i, s.swarm.velocity i j ≠ 0) (ev : Nat → Mat n d K → Except Err (Costs n K)) (iters : Nat)
    (nproc : Option Nat) (env : Nat → Draw n d K) (henv : ∀ t, (env t).Legal)
    (hw : InertiaIs cfg iters env (· ≠ 0)) :
    let s' := (optimize cfg ev iters nproc env s).1
    ∃ new, s'.evals = s.evals ++ new ∧ ∀ e ∈ new.tail, AtTwoPlaces e.1 := by
  have key : ∀ m t q (z : Opt n d K), PinnedIn b z → (∀ i, z.swarm.velocity i j ≠ 0) →
      ∃ new, (loop cfg ev env iters m t q z).1.evals = z.evals ++ new ∧
        (∀ e ∈ new.tail, AtTwoPlaces e.1) ∧
        (AtTwoPlaces z.swarm.position → ∀ e ∈ new, AtTwoPlaces e.1) := by
    intro m
    induction m with
    | zero => intro t q z _ _; exact ⟨[], by simp [loop], by simp, by simp⟩
    | succ m ih =>
      intro t q z hz hzv
      have hnext := hz.iterate hk hcb hb (ev t) (henv t) iters t q
      have hstep := fixed_step hk hcb hvh hcl (ev t) (env t) iters t q hz
      have short : ∃ new, (iterate cfg (ev t) (env t) iters t q z).1.evals = z.evals ++ new ∧
          (∀ e ∈ new.tail, AtTwoPlaces e.1) ∧
          (AtTwoPlaces z.swarm.position →
            ∀ e ∈ new, AtTwoPlaces e.1) := by
        rcases hstep with ⟨⟨new', h6, h7, h8⟩, -⟩ | ⟨o, w, x, c, -, -, -, hev, -⟩
        · refine ⟨new', h7, fun e he => ?_, fun hc e he => ?_⟩
          · exfalso
            match new', h6, he with
            | [], _, he => simp at he
            | [_], _, he => simp at he
          · rw [h8 e he]; exact hc
        · refine ⟨_, hev, by simp, fun hc e he => ?_⟩
          rw [List.mem_singleton.1 he]; exact hc
      rw [loop]
      cases hit : iterate cfg (ev t) (env t) iters t q z with
      | mk z' out =>
        rw [hit] at short hnext
        cases out with
        | error er => exact short
        | ok f =>
          cases f with
          | stop => exact short
          | «continue» q' =>
            obtain ⟨o, w, x, ho, hlw, hx, hbh, c, hev⟩ := continued hk hcb hvh hcl hz hit
            have hwne := hw t o w ho hlw
            have hcol : AtTwoPlaces z'.swarm.position := by
              rw [hst, bhCall, if_neg (by decide), if_neg (by decide), if_neg (by decide),
                if_pos rfl] at hbh
              rw [← Except.ok.inj (Prod.mk.inj hbh).2]
              refine ⟨fun k => (b.2 k - b.1 k) * (env t).bh.u k + b.1 k,
                fun k => (b.2 k - b.1 k) * (env t).bh.l k + b.1 k, fun i => ?_⟩
              have hxne : x i j ≠ b.1 j := by
                rw [(hx j hj i).2]
                intro h0
                exact mul_ne_zero hwne (hzv i) (by linarith)
              have hrow : rowLow b x i = true ∨ rowHigh b x i = true := by
                rcases lt_or_gt_of_ne hxne with h | h
                · exact .inl ((rowLow_iff b x i).2 ⟨j, h⟩)
                · exact .inr ((rowHigh_iff b x i).2 ⟨j, hj ▸ h⟩)
              unfold bhRandom
              cases hl : rowLow b x i with
              | true => right; simp
              | false =>
                left
                rw [hrow.resolve_left (by rw [hl]; simp)]
                simp
            obtain ⟨new', h1, h2, h3⟩ := ih (t + 1) q' z' hnext
              (fun i => by rw [(hx j hj i).1]; exact mul_ne_zero hwne (hzv i))
            refine ⟨(z.swarm.position, c) :: new', ?_, ?_, ?_⟩
            · show (loop cfg ev env iters m (t + 1) q' z').1.evals = _
              rw [h1, hev, List.append_assoc]; rfl
            · exact h3 hcol
            · intro hc e he
              rcases List.mem_cons.1 he with rfl | he
              · exact hc
              · exact h3 hcol e he
  have hp := (pinned_reachable hk hcb hb hinit hs).start hk nproc
  obtain ⟨new, h1, h2, -⟩ := key iters 0 [] _ hp hv
  rcases optimize_evals cfg ev iters nproc env s with h | h
  · exact ⟨[], by rw [h]; simp, by simp⟩
  · exact ⟨new, by rw [h, h1]; rfl, h2⟩

/-- **C107** (`reflective` and `periodic` do not).  With these strategies a call of `optimize` that has
a particle with a velocity in a fixed dimension, and an inertia weight other than zero, does not return:
`reflective` loops for ever, `periodic` leaves the finite numbers (see `C107_periodic_nan`). -/
theorem C107_no_result (cfg : Config n d K) (b : Bounds d K) (hk : cfg.kind ≠ .binary)
    (hcb : cfg.bounds = some b) (hb : WeakBounds b)
    (hinit : cfg.initPos.isSome ∨ cfg.center = fun _ => 1)
    (hst : cfg.bhStrategy = "reflective" ∨ cfg.bhStrategy = "periodic")
    (hvh : cfg.vhStrategy ∈ ["unmodified", "invert", "zero"]) (hcl : cfg.clamp = none)
    (hwin : 0 < cfg.window)
    (s : Opt n d K) (hs : ReachableLegal cfg s) (j : Fin d) (hj : b.1 j = b.2 j) (i : Fin n)
    (hv : s.swarm.velocity i j ≠ 0) (ev : Nat → Mat n d K → Except Err (Costs n K)) (iters : Nat)
    (hit : 0 < iters) (nproc : Option Nat) (env : Nat → Draw n d K)
    (hw : InertiaIs cfg iters env (· ≠ 0)) (v : XR K × Vec d K) :
    (optimize cfg ev iters nproc env s).2 ≠ .ok v := by
  intro hres
  have hp := (pinned_reachable hk hcb hb hinit hs).start hk nproc
  have hc := optimize_cases cfg ev iters nproc env s
  rw [hres] at hc
  generalize (optimize cfg ev iters nproc env s).1 = s' at hc
  cases hc with
  | done s1 _ hnp h hf =>
    obtain ⟨m, rfl⟩ : ∃ m, iters = m + 1 := ⟨iters - 1, by omega⟩
    rw [loop] at h
    have hic := iterate_cases cfg (ev 0) (env 0) (m + 1) 0 [] (startState cfg nproc s)
    cases hit : iterate cfg (ev 0) (env 0) (m + 1) 0 [] (startState cfg nproc s) with
    | mk z out =>
      rw [hit] at h hic
      dsimp only at hic
      cases out with
      | error er => cases h
      | ok f =>
        cases f with
        | stop =>
          cases hic with
          | stop c t g h hg hi hq => omega
        | «continue» q' =>
          obtain ⟨o, w, x, ho, hlw, hx, hbh, -⟩ := continued hk hcb hvh hcl hp hit
          have hwne := hw 0 o w ho hlw
          have hout : x i j < b.1 j ∨ b.2 j < x i j := by
            rw [← hj]
            apply lt_or_gt_of_ne
            rw [(hx j hj i).2]
            intro h0
            exact mul_ne_zero hwne hv (by
              show w * (startState cfg nproc s).swarm.velocity i j = 0
              linarith)
          rcases hst with hst | hst
          · rw [hst, C17_diverges _ b _ x i j hout hj.ge] at hbh
            cases (Prod.mk.inj hbh).2
          · rw [hst, (C18_defined_iff _ b _ x).2 ⟨i, j, hout, hj⟩] at hbh
            cases (Prod.mk.inj hbh).2

/-- **C107** (`periodic` in floating point).  The coordinate of a fixed parameter that is not exactly
at its value becomes `nan`. -/
theorem C107_periodic_nan (A : Fpu K) (h0 : A.rnd 0 = .fin 0) (b : Bounds d K) (j : Fin d)
    (hj : b.1 j = b.2 j) (x : Mat n d (XR K)) (i : Fin n) (hx : x i j ≠ .fin (b.1 j)) :
    bhPeriodicX A b x i j = .nan := by
  have hs : XR.abs (A.sub (.fin (b.2 j)) (.fin (b.1 j))) = .fin 0 := by
    rw [Fpu.sub_fin, hj, sub_self, h0]
    simp [XR.abs]
  have hm : ∀ a : XR K, A.mod a (.fin 0) = .nan := by
    intro a
    cases a <;> simp [Fpu.mod, XR.mod, Fpu.round]
  unfold bhPeriodicX
  dsimp only
  rw [hs]
  simp only [hm, Fpu.add_nan, Fpu.sub_nan]
  cases hl : isLowX b x i j <;> cases hh : isHighX b x i j <;> simp only [Bool.false_eq_true, if_true, if_false]
  unfold isLowX at hl
  unfold isHighX at hh
  rw [← hj] at hh
  cases hxi : x i j with
  | nan => rfl
  | pinf => rw [hxi] at hh; simp [XR.lt] at hh
  | ninf => rw [hxi] at hl; simp [XR.lt] at hl
  | fin a =>
    rw [hxi] at hl hh hx
    simp only [XR.lt, decide_eq_false_iff_not, not_lt] at hl hh
    exact absurd (by rw [le_antisymm hh hl]) hx

/-- **C107** (`periodic` in floating point, runs).  If an iteration gives a particle a velocity in a
fixed dimension that takes it off the fixed value, then this parameter of this particle is `nan` from
then on: in every later evaluation of this call and of all further calls. -/
theorem C107_periodic_run (A : Fpu K) (h0 : A.rnd 0 = .fin 0) (cfg : Config n d K) (b : Bounds d K)
    (hcb : cfg.bounds = some b) (hst : cfg.bhStrategy = "periodic") (j : Fin d) (hj : b.1 j = b.2 j)
    (c : CallX n d K) (t : Nat) (q q' : List Bool) (s s' : OptX n d K)
    (hit : iterateX A cfg (c.ev t) (c.env t) (c.oh t) t q s = (s', .ok (.continue q'))) (i : Fin n)
    (hv : A.add (s.swarm.position i j) (s'.swarm.velocity i j) ≠ .fin (b.1 j)) (m : Nat) :
    let s'' := (loopX A cfg c m (t + 1) q' s').1
    s''.swarm.position i j = .nan ∧
      (∃ new, s''.evals = s'.evals ++ new ∧ ∀ e ∈ new, e.1 i j = .nan) ∧
      ∀ C s3, CallsX A cfg C s'' s3 → ∃ new, s3.evals = s''.evals ++ new ∧ ∀ e ∈ new, e.1 i j = .nan := by
  have hcw : Coordinatewise cfg := .inr (by rw [hst]; simp)
  have hpos : s'.swarm.position i j = .nan := by
    have hmove : ∀ (s1 s2 : OptX n d K), s1.swarm.position = s.swarm.position →
        moveSwarmX A cfg (c.env t) (c.oh t) s1 = (s2, .ok ()) → s2 = s' →
        s2.swarm.position i j = .nan := by
      intro s1 s2 hs1 hm hs2
      rcases moveSwarmX_cases A cfg (c.env t) (c.oh t) s1 with ⟨e, h⟩ | ⟨o', -, ⟨vm, e, -, h⟩ |
        ⟨vm, v, hv', ⟨bm, e, -, h⟩ | ⟨bm, p, hp, h⟩⟩⟩
      · rw [h] at hm; cases hm
      · rw [h] at hm; cases hm
      · rw [h] at hm; cases hm
      · rw [h] at hm
        cases hm
        rw [← hs2] at hv
        unfold computePositionX at hp
        rw [hcb, hst] at hp
        have hp := (Prod.mk.inj hp).2
        cases hp
        exact C107_periodic_nan A h0 b j hj _ i (by rw [← hs1] at hv; exact hv)
    rcases iterateX_cases A cfg (c.ev t) (c.env t) (c.oh t) t q s with ⟨e, -, h1⟩ | ⟨c', -, ⟨-, h1⟩ |
      ⟨g, hg, h1 | ⟨s3, e, hm, h1⟩ | ⟨s3, q', hm, h1⟩⟩⟩
    · rw [h1] at hit; cases hit
    · rw [h1] at hit; cases hit
    · rw [h1] at hit; cases hit
    · rw [h1] at hit; cases hit
    · rw [h1] at hit
      cases hit
      exact hmove (recordBestX g (recordEvalX c' s)) _ rfl hm rfl
  obtain ⟨h1, h2⟩ := loopX_keeps_nan hcw c m (t + 1) q' s' (A := A) hpos
  exact ⟨h1, h2, fun C s3 h3 => (C95_forever A cfg hcw C _ s3 i j h1 h3).2⟩

/-! ## The hypotheses can be met -/

namespace Ex

/-- Two parameters, the second fixed at 1. -/
def fixedBox : Bounds 2 ℚ := (fun j => if j = 0 then 0 else 1, fun j => if j = 0 then 10 else 1)

def fixedCfg (bh : String) : Config 2 2 ℚ where
  kind := .globalBest
  options := opts
  bounds := some fixedBox
  center := fun _ => 1
  bhStrategy := bh

/-- The optimizer after its construction. -/
def fixedStart (bh : String) : Opt 2 2 ℚ :=
  { swarm := mkSwarm (fun i j => 1 * (fixedBox.1 j + (fixedBox.2 j - fixedBox.1 j) * (init 2 2).pos i j))
      (generateVelocity none (init 2 2).vel) (fixedCfg bh).options }

theorem fixedStart_ok (bh : String) :
    construct (fixedCfg bh) (init 2 2) (init 2 2) = .ok (fixedStart bh) := rfl

theorem fixedStart_reachable (bh : String) : ReachableLegal (fixedCfg bh) (fixedStart bh) :=
  ⟨init 2 2, init 2 2, _, [], by unfold InitDraw.Legal Unit01; decide +kernel,
    by unfold InitDraw.Legal Unit01; decide +kernel, by simp, fixedStart_ok bh, rfl⟩

theorem fixedInertia (bh : String) (iters : Nat) :
    InertiaIs (fixedCfg bh) iters (fun _ => draw 2 2) (· ≠ 0) := by
  intro t o w ho hw
  have : o = opts := by
    have h : ohCall (fixedCfg bh).ohStrategy (fixedCfg bh).options
      { iternow := some (t : ℚ), itermax := some (iters : ℚ) } (draw 2 2).oh = .ok opts := rfl
    rw [h] at ho
    exact (Except.ok.inj ho).symm
  subst this
  have h2 : opts.lookup "w" = some (1 / 2) := by decide +kernel
  rw [h2] at hw
  cases hw
  norm_num

/-- Everything the theorems of C107 ask for. -/
example (bh : String) : (fixedCfg bh).kind ≠ .binary ∧ (fixedCfg bh).bounds = some fixedBox ∧
    WeakBounds fixedBox ∧ fixedBox.1 1 = fixedBox.2 1 ∧ ReachableLegal (fixedCfg bh) (fixedStart bh) ∧
    (∀ i, (fixedStart bh).swarm.velocity i 1 ≠ 0) ∧ 0 < (fixedCfg bh).window ∧
    InertiaIs (fixedCfg bh) 3 (fun _ => draw 2 2) (· ≠ 0) ∧ ∀ t : Nat, ((fun _ => draw 2 2) t).Legal :=
  ⟨(fun h => by cases h), rfl, by unfold WeakBounds; decide +kernel, by decide +kernel,
    fixedStart_reachable bh, (show ∀ i, generateVelocity none (init 2 2).vel i 1 ≠ 0 by decide +kernel),
    (show 0 < 1 by decide), fixedInertia bh 3, fun _ => draw_legal 2 2⟩

/-- The first parameter of both particles after one iteration. -/
def fixedAfter (bh : String) : Option (ℚ × ℚ) :=
  match optimize (fixedCfg bh) (sphere 2 2) 1 none (fun _ => draw 2 2) (fixedStart bh) with
  | (s, .ok _) => some (s.swarm.position 0 0, s.swarm.position 1 0)
  | _ => none

/-- The start is `0` and `5/2`: `nearest` and `intermediate` move both particles, `shrink` none,
`random` puts both at one place, `reflective` and `periodic` give no result. -/
example : fixedAfter "nearest" = some (1 / 4, 7 / 3) ∧ fixedAfter "intermediate" = some (1 / 4, 7 / 3) ∧
    fixedAfter "shrink" = some (0, 5 / 2) ∧ fixedAfter "random" = some (5, 5) ∧
    fixedAfter "reflective" = none ∧ fixedAfter "periodic" = none := by decide +kernel

example : (fixedCfg "nearest").Coordinatewise ∧
    (∀ j, (∀ j', (fun _ : Fin 1 => (0 : Fin 2)) j' ≠ j) → fixedBox.1 j = fixedBox.2 j) ∧
    EvFilled (n := 2) fixedBox (fun _ : Fin 1 => (0 : Fin 2)) (sphere 2 2)
      (fun _ y => .ok fun i => .fin (y i 0 * y i 0 + 1)) := by
  refine ⟨⟨.inl rfl, .inr (.inl rfl), .inl rfl⟩, ?_, ?_, ?_⟩
  · decide +kernel
  · intro k x hx
    have h1 : ∀ i, x i 1 = 1 := fun i => by
      rw [hx i 1 (fun j' => by decide)]; decide +kernel
    unfold sphere keepM
    congr 1
    funext i
    simp [List.finRange_succ, h1 i]
  · intro k y c hc i
    cases hc
    rfl

/-- In float64: the value 1 with a velocity of 1/2 becomes `nan`. -/
example : fpu64.rnd 0 = .fin 0 ∧ (fun (_ : Fin 1) (_ : Fin 2) => XR.fin (3 / 2 : ℚ)) 0 1 ≠ .fin (fixedBox.1 1) := by
  constructor
  · rw [fpu64_fin (by rw [f64_zero]; simp), f64_zero]
  · intro h
    have := XR.fin.inj h
    revert this
    decide +kernel

end Ex

end PySwarms
