import Verif.Props.OnlyStrategy
import Verif.Props.Options
import Verif.Props.Bounds

/-!
# C53 for the option strategies, C37 for whole optimizers
-/

set_option linter.unusedSectionVars false

namespace PySwarms

variable {n d : Nat} {K : Type} [Field K] [LinearOrder K] [IsStrictOrderedRing K] [Transc K]
  [FloorRing K]

/-- The option strategies of the documentation (handlers.py:551-570). -/
def ohStrategies : List String := ["exp_decay", "lin_variation", "random", "nonlin_mod"]

theorem ohStrategy_unknown {name : String} (h : name ∉ ohStrategies) (start : Opts K) (opt : String)
    (kw : OHKw K) (u : K) : ohStrategy name start opt kw u = .error .keyError := by
  simp only [ohStrategies, List.mem_cons, List.not_mem_nil, or_false, not_or] at h
  obtain ⟨h1, h2, h3, h4⟩ := h
  unfold ohStrategy
  rw [if_neg h1, if_neg h2, if_neg h3, if_neg h4]

theorem startEnd_error {start : Opts K} {opt : String} {kw : OHKw K} {e : Err}
    (h : startEnd start opt kw = .error e) : e = .keyError := by
  unfold startEnd at h
  split at h
  · dsimp only at h
    split at h
    · cases h
    · cases h; rfl
  · cases h; rfl

/-- In the first iteration of an optimizer, the options handler raises nothing but `KeyError`. -/
theorem ohStrategy_first_error {name : String} {start : Opts K} {opt : String} {m : Nat} (hm : 0 < m)
    {u : K} {e : Err} (h : ohStrategy name start opt
      { iternow := some ((0 : Nat) : K), itermax := some (m : K) } u = .error e) : e = .keyError := by
  have hm' : (0 : K) < m := by exact_mod_cast hm
  unfold ohStrategy at h
  split at h
  · unfold ohExpDecay at h
    dsimp only at h
    split at h
    · next h' => cases h; exact startEnd_error h'
    · rw [if_neg hm'.ne', if_neg (by simp)] at h
      cases h
  · split at h
    · unfold ohLinVariation at h
      split at h
      · next h' => cases h; exact startEnd_error h'
      · dsimp only at h
        rw [if_neg hm'.ne'] at h
        cases h
    · split at h
      · unfold ohRandom at h
        split at h
        · cases h; rfl
        · cases h; rfl
      · split at h
        · unfold ohNonlinMod at h
          dsimp only at h
          split at h
          · next h' => cases h; exact startEnd_error h'
          · rw [if_neg (by push Not; constructor <;> simp [hm'.le]),
              if_neg (by push Not; constructor <;> intro h0 <;> simp [hm'.ne'] at h0)] at h
            cases h
        · cases h; rfl

theorem ohLoop_first_error {strategy : List (String × String)} {start : Opts K} {m : Nat} (hm : 0 < m)
    {u : String → K} {e : Err} {l : Opts K} (h : ohLoop strategy start
      { iternow := some ((0 : Nat) : K), itermax := some (m : K) } u l = .error e) :
    e = .keyError := by
  induction l with
  | nil => cases h
  | cons a l ih =>
    obtain ⟨o, v⟩ := a
    rw [ohLoop] at h
    split at h
    · split at h
      · next h' => cases h; exact ih h'
      · cases h
    · split at h
      · next h' => cases h; exact ohStrategy_first_error hm h'
      · split at h
        · next h' => cases h; exact ih h'
        · cases h

theorem ohLoop_unknown {strategy : List (String × String)} {start : Opts K} {kw : OHKw K}
    {u : String → K} {opt name : String} (hl : strategy.lookup opt = some name)
    (hn : name ∉ ohStrategies) {l : Opts K} (ho : opt ∈ l.map Prod.fst) :
    ∃ e, ohLoop strategy start kw u l = .error e := by
  induction l with
  | nil => simp at ho
  | cons a l ih =>
    obtain ⟨o, v⟩ := a
    rw [ohLoop]
    by_cases h : o = opt
    · subst h
      rw [hl]
      dsimp only
      rw [ohStrategy_unknown hn]
      exact ⟨_, rfl⟩
    · obtain ⟨e, he⟩ := ih (by
        simp only [List.map_cons, List.mem_cons] at ho
        exact ho.resolve_left fun h' => h h'.symm)
      rw [he]
      split
      · exact ⟨_, rfl⟩
      · split
        · exact ⟨_, rfl⟩
        · exact ⟨_, rfl⟩

theorem callOptions_unknown {cfg : Config n d K} (hk : cfg.kind ≠ .binary) {opt name : String}
    (ho : opt ∈ cfg.options.map Prod.fst) (hl : cfg.ohStrategy.lookup opt = some name)
    (hn : name ∉ ohStrategies) (iters i : Nat) (r : Draw n d K) (s : Swarm n d K) :
    ∃ e, callOptions cfg iters i r s = .error e ∧ (0 < iters → i = 0 → e = .keyError) := by
  have hne : cfg.ohStrategy.isEmpty = false := by
    cases h : cfg.ohStrategy with
    | nil => rw [h] at hl; cases hl
    | cons => rfl
  have hc : callOptions cfg iters i r s = ohLoop cfg.ohStrategy cfg.options
      { iternow := some (i : K), itermax := some (iters : K) } r.oh cfg.options := by
    unfold callOptions
    cases hkk : cfg.kind <;> first
      | exact absurd hkk hk
      | (dsimp only; rw [ohCall, hne]; rfl)
  obtain ⟨e, he⟩ := ohLoop_unknown (start := cfg.options)
    (kw := { iternow := some (i : K), itermax := some (iters : K) }) (u := r.oh) hl hn ho
  refine ⟨e, by rw [hc, he], ?_⟩
  rintro hit rfl
  exact ohLoop_first_error hit he

/-- C53 for the options: with an unknown strategy for one of the options, no call of `optimize` with
at least one iteration returns. -/
theorem C53_option_strategy (cfg : Config n d K) (hk : cfg.kind ≠ .binary) (opt name : String)
    (ho : opt ∈ cfg.options.map Prod.fst) (hl : cfg.ohStrategy.lookup opt = some name)
    (hn : name ∉ ["exp_decay", "lin_variation", "random", "nonlin_mod"])
    (s : Opt n d K) (hr : Reachable cfg s) (ev : Nat → Mat n d K → Except Err (Costs n K))
    (iters : Nat) (hit : 1 ≤ iters) (nproc : Option Nat) (env : Nat → Draw n d K)
    (v : XR K × Vec d K) : (optimize cfg ev iters nproc env s).2 ≠ .ok v := by
  refine optimize_first_not_ok cfg (reachable_window hr) ev iters hit nproc env s ?_ v
  intro c t g _ _
  obtain ⟨e, he, -⟩ := callOptions_unknown hk ho hl hn iters 0 (env 0)
    (recordBest t g (recordEval c (startState cfg nproc s))).swarm
  refine ⟨recordBest t g (recordEval c (startState cfg nproc s)), e, ?_⟩
  unfold moveSwarm
  rw [he]

/-- C53 for the options, when nothing but the strategies is wrong: if the call would return with some
other `oh_strategy`, then with the unknown one it raises `KeyError`, in the first iteration, after
one evaluation, and nothing has moved. -/
theorem C53_only_option (cfg : Config n d K) (hk : cfg.kind ≠ .binary) (opt name : String)
    (ho : opt ∈ cfg.options.map Prod.fst) (hl : cfg.ohStrategy.lookup opt = some name)
    (hn : name ∉ ["exp_decay", "lin_variation", "random", "nonlin_mod"])
    (s : Opt n d K) (hr : Reachable cfg s) (ev : Nat → Mat n d K → Except Err (Costs n K))
    (iters : Nat) (hit : 1 ≤ iters) (nproc : Option Nat) (env : Nat → Draw n d K)
    (other : List (String × String)) (v : XR K × Vec d K)
    (hv : (optimize { cfg with ohStrategy := other } ev iters nproc env s).2 = .ok v) :
    ∃ t c, optimize cfg ev iters nproc env s = (t, .error .keyError) ∧
      ev 0 s.swarm.position = .ok c ∧ t.evals = s.evals ++ [(s.swarm.position, c)] ∧
      t.costHistory.length = s.costHistory.length + 1 ∧
      t.swarm.position = s.swarm.position ∧ t.swarm.velocity = s.swarm.velocity ∧
      t.swarm.options = s.swarm.options := by
  obtain ⟨hp, c, t, g, s', hc, hg, hm⟩ := optimize_first_ok { cfg with ohStrategy := other }
    (show 0 < Config.window cfg from reachable_window hr) ev iters hit nproc env s v hv
  have hst : startState { cfg with ohStrategy := other } nproc s = startState cfg nproc s := rfl
  rw [hst] at hg hm
  have hg' : callGbest cfg (env 0).oracle s.top (recordEval c (startState cfg nproc s)).swarm =
    (t, .ok g) := hg
  obtain ⟨e, he, hek⟩ := callOptions_unknown hk ho hl hn iters 0 (env 0)
    (recordBest t g (recordEval c (startState cfg nproc s))).swarm
  obtain rfl := hek hit rfl
  have hmv : moveSwarm cfg (env 0) iters 0
      (recordBest t g (recordEval c (startState cfg nproc s))) =
      (recordBest t g (recordEval c (startState cfg nproc s)), .error .keyError) := by
    unfold moveSwarm
    rw [he]
  refine ⟨_, c, optimize_first_error cfg (reachable_window hr) ev iters hit nproc hp env s c t g _ _
    hc hg' hmv, hc, rfl, ?_, rfl, rfl, rfl⟩
  show (s.costHistory ++ [_]).length = _
  rw [List.length_append]; rfl

theorem ohLoop_extra {key name : String} {strategy : List (String × String)} {start : Opts K}
    {kw : OHKw K} {u : String → K} {l : Opts K} (h : key ∉ l.map Prod.fst) :
    ohLoop ((key, name) :: strategy) start kw u l = ohLoop strategy start kw u l := by
  induction l with
  | nil => rfl
  | cons a l ih =>
    obtain ⟨o, v⟩ := a
    simp only [List.map_cons, List.mem_cons, not_or] at h
    rw [ohLoop, ohLoop, ih h.2, List.lookup_cons]
    have : (o == key) = false := by simpa using fun e => h.1 e.symm
    rw [this]

theorem ohLoop_nil (start : Opts K) (kw : OHKw K) (u : String → K) (l : Opts K) :
    ohLoop [] start kw u l = .ok l := by
  induction l with
  | nil => rfl
  | cons a l ih => obtain ⟨o, v⟩ := a; rw [ohLoop, ih]; rfl

/-- C53: a strategy for a key that is not among the options is never noticed, whatever its name. -/
theorem C53_option_unused (cfg : Config n d K) (key name : String)
    (hk : key ∉ cfg.options.map Prod.fst) (ev : Nat → Mat n d K → Except Err (Costs n K))
    (iters : Nat) (nproc : Option Nat) (env : Nat → Draw n d K) (s : Opt n d K) :
    optimize { cfg with ohStrategy := (key, name) :: cfg.ohStrategy } ev iters nproc env s =
      optimize cfg ev iters nproc env s := by
  refine optimize_congr { cfg with ohStrategy := (key, name) :: cfg.ohStrategy } cfg rfl rfl rfl rfl
    ?_ ev iters nproc env s
  intro r iters i s
  have ho : callOptions { cfg with ohStrategy := (key, name) :: cfg.ohStrategy } iters i r s.swarm =
      callOptions cfg iters i r s.swarm := by
    unfold callOptions ohCall
    dsimp only
    rw [ohLoop_extra hk]
    cases h : cfg.ohStrategy with
    | nil => rw [ohLoop_nil]; rfl
    | cons a l => rfl
  unfold moveSwarm
  rw [ho]
  rfl

/-! ## C37: what an optimizer does with `init_pos` -/

/-- Nothing has been evaluated and the swarm is at `p`, or the first evaluation was at `p`. -/
def FirstAt (p : Mat n d K) (s : Opt n d K) : Prop :=
  (s.evals = [] ∧ s.swarm.position = p) ∨ ∃ c rest, s.evals = (p, c) :: rest

theorem firstAt_recordEval {p : Mat n d K} {s s' : Opt n d K} (h : FirstAt p s) (c : Costs n K)
    (he : s'.evals = (recordEval c s).evals) : FirstAt p s' := by
  refine Or.inr ?_
  rw [he]
  show ∃ c' rest, s.evals ++ [(s.swarm.position, c)] = _
  rcases h with ⟨h1, h2⟩ | ⟨c', rest, h1⟩
  · exact ⟨c, [], by rw [h1, h2]; rfl⟩
  · exact ⟨c', rest ++ [(s.swarm.position, c)], by rw [h1]; rfl⟩

theorem firstAt_iterate {p : Mat n d K} (cfg : Config n d K)
    (ev : Mat n d K → Except Err (Costs n K)) (r : Draw n d K) (iters i : Nat) (q : List Bool)
    (s : Opt n d K) (h : FirstAt p s) : FirstAt p (iterate cfg ev r iters i q s).1 := by
  have hc := iterate_cases cfg ev r iters i q s
  generalize (iterate cfg ev r iters i q s).1 = s' at hc ⊢
  generalize (iterate cfg ev r iters i q s).2 = o at hc
  cases hc with
  | evalError => exact h
  | gbestError c t e => exact firstAt_recordEval h c rfl
  | stop c t g => exact firstAt_recordEval h c rfl
  | moveError c t g s' e _ _ _ hm =>
    have hf := moveSwarm_frame cfg r iters i (recordBest t g (recordEval c s))
    rw [hm] at hf
    exact firstAt_recordEval h c (by rw [hf.2.2.2.2.2.2.2.2.2.2.2.1]; rfl)
  | moved c t g s' _ _ _ hm =>
    have hf := moveSwarm_frame cfg r iters i (recordBest t g (recordEval c s))
    rw [hm] at hf
    exact firstAt_recordEval h c (by rw [hf.2.2.2.2.2.2.2.2.2.2.2.1]; rfl)

/-- C37 for optimizers (all but BinaryPSO): given `init_pos`, `ftol_iter` and (for LocalBestPSO) `k`
and `p` as required, construction raises `ValueError` if some coordinate is outside the bounds;
otherwise it succeeds and `init_pos` is the position of the swarm, also after every `reset`, and the
first thing the objective sees. -/
theorem C37_optimizer (cfg : Config n d K) (hk : cfg.kind ≠ .binary) (p : Mat n d K)
    (hp : cfg.initPos = some p) (r1 r2 : InitDraw n d K) :
    (∀ s, construct cfg r1 r2 = .ok s →
      (∀ b, cfg.bounds = some b → InBox b p) ∧ s.swarm.position = p ∧ s.swarm.pbestPos = p ∧
      (∀ ops r, (reset cfg r (runOps cfg s ops)).2 = .ok () ∧
        (reset cfg r (runOps cfg s ops)).1.swarm.position = p) ∧
      ∀ ev iters nproc env t o, optimize cfg ev iters nproc env s = (t, o) →
        ∀ x c rest, t.evals = (x, c) :: rest → x = p) ∧
    ∀ z : ℤ, 0 < z → cfg.ftolIter = .int z →
      (cfg.kind.needsKP → cfg.args.k.isSome ∧ cfg.args.p.isSome) →
      ((∃ b, cfg.bounds = some b ∧ ¬ InBox b p) → construct cfg r1 r2 = .error .valueError) ∧
      ((∀ b, cfg.bounds = some b → InBox b p) → ∃ s, construct cfg r1 r2 = .ok s) := by
  have hb : cfg.isBinary = false := by
    unfold Config.isBinary
    cases h : cfg.kind <;> first | rfl | exact absurd h hk
  have hrs : ∀ r, resetSwarm cfg r = match generateSwarm cfg.bounds cfg.center (some p) r.pos with
      | .error e => .error e
      | .ok q => .ok (mkSwarm q (generateVelocity cfg.clamp r.vel) cfg.options) := by
    intro r
    unfold resetSwarm createSwarm
    rw [hb, hp]
    rfl
  have hin := C37_init_pos cfg.bounds cfg.center p
  have hkp' : (cfg.kind.needsKP → cfg.args.k.isSome ∧ cfg.args.p.isSome) →
      (cfg.kind.needsKP && (cfg.args.k.isNone || cfg.args.p.isNone)) = false := by
    intro hkp
    cases h : cfg.kind.needsKP
    · rfl
    · obtain ⟨h1, h2⟩ := hkp h
      rw [Option.isSome_iff_exists] at h1 h2
      obtain ⟨k, h1⟩ := h1
      obtain ⟨q, h2⟩ := h2
      rw [h1, h2]; rfl
  by_cases hbox : ∀ b, cfg.bounds = some b → InBox b p
  · have hrs' : ∀ r, resetSwarm cfg r =
        .ok (mkSwarm p (generateVelocity cfg.clamp r.vel) cfg.options) := by
      intro r
      rw [hrs, (hin r.pos).1 hbox]
    refine ⟨?_, ?_⟩
    · intro s hs
      have hsw : s = { swarm := mkSwarm p (generateVelocity cfg.clamp r2.vel) cfg.options } := by
        unfold construct at hs
        rw [hrs', hrs'] at hs
        split at hs
        · cases hs
        · split at hs
          · cases hs
          · cases hs; rfl
      subst hsw
      refine ⟨hbox, rfl, rfl, ?_, ?_⟩
      · intro ops r
        unfold reset
        rw [hrs']
        exact ⟨rfl, rfl⟩
      · intro ev iters nproc env t o h x c rest hx
        have hI := optimize_inv cfg ev iters nproc env (FirstAt p) (fun s a b c h => h)
          (fun s h => h) (fun i q s h => firstAt_iterate cfg (ev i) (env i) iters i q s h) _
          (show FirstAt p { swarm := mkSwarm p (generateVelocity cfg.clamp r2.vel) cfg.options }
            from Or.inl ⟨rfl, rfl⟩)
        rw [h] at hI
        rcases hI with ⟨h0, -⟩ | ⟨c', rest', h1⟩
        · exact absurd (h0.symm.trans hx) (by simp)
        · have := h1.symm.trans hx
          simp only [List.cons.injEq, Prod.mk.injEq] at this
          exact this.1.1.symm
    · intro z hz hf hkp
      refine ⟨fun ⟨b, hb1, hb2⟩ => absurd (hbox b hb1) hb2, fun _ => ?_⟩
      unfold construct
      rw [hrs', hrs', hf, hkp' hkp]
      simp [checkFtolIter, hz]
  · push Not at hbox
    have hrs' : ∀ r, resetSwarm cfg r = .error .valueError := by
      intro r
      rw [hrs, (hin r.pos).2 hbox]
    refine ⟨?_, ?_⟩
    · intro s hs
      unfold construct at hs
      rw [hrs'] at hs
      split at hs
      · cases hs
      · split at hs <;> cases hs
    · intro z hz hf hkp
      refine ⟨fun _ => ?_, fun h => ?_⟩
      · unfold construct
        rw [hrs', hf, hkp' hkp]
        simp [checkFtolIter, hz]
      · obtain ⟨b, hb1, hb2⟩ := hbox
        exact absurd (h b hb1) hb2

/-- Non-vacuity: a run with an unknown option strategy whose repaired version returns, and an
optimizer with an accepted `init_pos`. -/
example : (match construct ({ Ex.gcfg 3 2 with ohStrategy := [("w", "nope")] } : Config 3 2 ℚ)
      (Ex.init 3 2) (Ex.init 3 2) with
    | .ok s => (match optimize (Ex.gcfg 3 2) (Ex.sphere 3 2) 1 none (fun _ => Ex.draw 3 2) s,
        optimize ({ Ex.gcfg 3 2 with ohStrategy := [("w", "nope")] } : Config 3 2 ℚ) (Ex.sphere 3 2) 1
          none (fun _ => Ex.draw 3 2) s with
      | (_, .ok _), (t, .error .keyError) => t.evals.length == 1
      | _, _ => false)
    | _ => false) = true := by decide +kernel

end PySwarms
