import Verif.Props.CustomLoop
import Verif.Props.Options

/-!
# Custom end values for time-varying options (C63)

The options handler tutorial (`schedRun`).
-/

set_option linter.unusedSectionVars false

namespace PySwarms

section
variable {K : Type} [Field K] [LinearOrder K] [IsStrictOrderedRing K] [Transc K]

/-- C63 for `random`: with `end_opts`, the new value is uniformly placed between the start value and
the end value (`start + 1` when `end_opts` has no such key), never equal to the end value unless
the two coincide. -/
theorem C63_random {start : Opts K} {s : K} {opt : String} {eo : Opts K} {kw : OHKw K}
    (hs : start.lookup opt = some s) (hk : kw.endOpts = some eo) {u : K} (hu : Unit01 u) :
    ∃ v, ohStrategy "random" start opt kw u = .ok v ∧
      (∀ e, eo.lookup opt = some e → Between s e v ∧ (v = e → e = s)) ∧
      (eo.lookup opt = none → s ≤ v ∧ v < s + 1) := by
  obtain ⟨hu0, hu1⟩ := hu
  refine ⟨_, by simp [ohStrategy, ohRandom, hs, hk]; rfl, ?_, ?_⟩
  · intro e he
    rw [he]
    dsimp only
    have h := between_lerp (s := e) (e := s) hu0 hu1.le
    refine ⟨⟨by rw [min_comm]; exact h.1, by rw [max_comm]; exact h.2⟩, fun hv => ?_⟩
    have : (e - s) * (1 - u) = 0 := by linear_combination -hv
    rcases mul_eq_zero.1 this with h | h
    · linarith
    · linarith
  · intro he
    rw [he]
    dsimp only
    constructor <;> linarith

end

section
variable {n d : Nat} {K : Type} [Field K] [LinearOrder K] [IsStrictOrderedRing K] [Transc K]
  [FloorRing K]

theorem schedStep_options {cfg : Config n d K} {f : Mat n d K → Except Err (Costs n K)}
    {eo : Opts K} {r : Draw n d K} {iters i : Nat} {s s' : Opt n d K} {o : Opts K}
    (h : schedStep cfg f eo r iters i s = .ok (o, s')) :
    ohCall cfg.ohStrategy cfg.options
      { iternow := some (i : K), itermax := some (iters : K), endOpts := some eo } r.oh = .ok o ∧
    s'.swarm.options = o := by
  unfold schedStep at h
  split at h
  · cases h
  · dsimp only at h
    split at h
    · cases h
    · split at h
      · cases h
      · next ho =>
        split at h
        · cases h
        · split at h
          · cases h
          · cases h; exact ⟨ho, rfl⟩

theorem schedLoop_options {cfg : Config n d K} {f : Nat → Mat n d K → Except Err (Costs n K)}
    {eo : Opts K} {env : Nat → Draw n d K} {iters m i : Nat} {s s' : Opt n d K} {os : List (Opts K)}
    (h : schedLoop cfg f eo env iters m i s = .ok (os, s')) :
    os.length = m ∧ ∀ k (hk : k < os.length),
      ohCall cfg.ohStrategy cfg.options
        { iternow := some ((i + k : Nat) : K), itermax := some (iters : K), endOpts := some eo }
        (env (i + k)).oh = .ok os[k] := by
  induction m generalizing i s os with
  | zero => rw [schedLoop] at h; cases h; simp
  | succ m ih =>
    rw [schedLoop] at h
    split at h
    · cases h
    · next o s1 h1 =>
      split at h
      · cases h
      · next os' s2 h2 =>
        cases h
        obtain ⟨hl, hk⟩ := ih h2
        refine ⟨by simp [hl], ?_⟩
        intro k hk'
        cases k with
        | zero => simpa using (schedStep_options h1).1
        | succ k =>
          have := hk k (by simpa using hk')
          have e : i + (k + 1) = i + 1 + k := by omega
          rw [e]
          simpa using this

theorem schedRun_options {cfg : Config n d K} {f : Nat → Mat n d K → Except Err (Costs n K)}
    {eo : Opts K} {env : Nat → Draw n d K} {iters : Nat} {s s' : Opt n d K} {os : List (Opts K)}
    {c : XR K} {x : Vec d K} (h : schedRun cfg f eo env iters s = .ok (os, s', c, x)) :
    os.length = iters ∧ ∀ k (hk : k < os.length),
      ohCall cfg.ohStrategy cfg.options
        { iternow := some (k : K), itermax := some (iters : K), endOpts := some eo } (env k).oh = .ok os[k] := by
  unfold schedRun at h
  split at h
  · cases h
  · next h1 =>
    split at h
    · cases h
    · split at h
      · cases h
      · cases h
        have := schedLoop_options h1
        simpa using this

/-- C63: in the tutorial's run with `end_opts`, the dictionary of every pass has the keys of the
start options, and an option without strategy keeps its start value throughout. -/
theorem C63_keys (cfg : Config n d K) (f : Nat → Mat n d K → Except Err (Costs n K))
    (eo : Opts K) (env : Nat → Draw n d K) (iters : Nat) (s s' : Opt n d K) (os : List (Opts K))
    (c : XR K) (x : Vec d K) (h : schedRun cfg f eo env iters s = .ok (os, s', c, x)) :
    os.length = iters ∧ ∀ o ∈ os, o.map Prod.fst = cfg.options.map Prod.fst ∧
      ∀ opt v, cfg.ohStrategy.lookup opt = none → cfg.options.lookup opt = some v →
        o.lookup opt = some v := by
  obtain ⟨hl, hk⟩ := schedRun_options h
  refine ⟨hl, fun o ho => ?_⟩
  obtain ⟨k, hk', rfl⟩ := List.getElem_of_mem ho
  have hkv := C33_keys_and_values _ _ _ _ _ (hk k hk')
  refine ⟨hkv.1, fun opt v hn hv => ?_⟩
  obtain ⟨v', hv', -, hv'', -⟩ := forall₂_lookup hkv.2 (fun a b h => h.1) hv
  rw [hv']; exact congrArg some (hv'' hn)

/-- C63: in the tutorial's run with `end_opts`, an option under `lin_variation` or `random` stays
between its start value and the end value given for it, in every pass; `lin_variation` is exactly at
the start value in the first pass. -/
theorem C63_between (cfg : Config n d K) (f : Nat → Mat n d K → Except Err (Costs n K))
    (eo : Opts K) (env : Nat → Draw n d K) (henv : ∀ i, (env i).Legal) (iters : Nat)
    (s s' : Opt n d K) (os : List (Opts K)) (c : XR K) (x : Vec d K)
    (h : schedRun cfg f eo env iters s = .ok (os, s', c, x)) {c1 c2 : K}
    (h1 : cfg.options.lookup "c1" = some c1) (h2 : cfg.options.lookup "c2" = some c2)
    {opt : String} {a e : K} (ha : cfg.options.lookup opt = some a) (he : eo.lookup opt = some e)
    (hst : cfg.ohStrategy.lookup opt = some "lin_variation" ∨
      cfg.ohStrategy.lookup opt = some "random") :
    ∀ k (hk : k < os.length), ∃ v, os[k].lookup opt = some v ∧ Between a e v ∧
      (cfg.ohStrategy.lookup opt = some "lin_variation" → k = 0 → v = a) := by
  obtain ⟨hl, hko⟩ := schedRun_options h
  intro k hk
  have hkv := C33_keys_and_values _ _ _ _ _ (hko k hk)
  obtain ⟨v, hv, -, -, hval⟩ := forall₂_lookup hkv.2 (fun a b h => h.1) ha
  refine ⟨v, hv, ?_⟩
  rcases hst with hst | hst
  · have hval := hval _ hst
    obtain ⟨v', hv', hb, h0, -⟩ := C34_lin_between (kw :=
      { iternow := some (k : K), itermax := some (iters : K), endOpts := some eo }) h1 h2 ha
      (.given opt eo e rfl he) rfl rfl
      (by exact_mod_cast (by omega : 0 < iters)) (by exact_mod_cast Nat.zero_le k)
      (by exact_mod_cast (by omega : k ≤ iters))
    have heq : ohLinVariation cfg.options opt
        { iternow := some (k : K), itermax := some (iters : K), endOpts := some eo } = .ok v := by
      simpa [ohStrategy] using hval
    rw [heq] at hv'
    cases hv'
    exact ⟨hb, fun _ hk0 => h0 (by rw [hk0]; simp)⟩
  · have hval := hval _ hst
    obtain ⟨v', hv', hb, -⟩ := C63_random (start := cfg.options) (opt := opt) (eo := eo)
      (kw := { iternow := some (k : K), itermax := some (iters : K), endOpts := some eo }) ha rfl
      ((henv k).2.2.2.1 opt)
    rw [hv'] at hval
    cases hval
    exact ⟨(hb e he).1, fun hl' => by rw [hl'] at hst; simp at hst⟩

theorem startEnd_nil (start : Opts K) (opt : String) (a b : Option K) :
    startEnd start opt { iternow := a, itermax := b, endOpts := some [] } =
      startEnd start opt { iternow := a, itermax := b } := by
  unfold startEnd
  rcases start.lookup "c1" with _ | c1
  · rfl
  rcases start.lookup "c2" with _ | c2
  · rfl
  rfl

theorem ohCall_nil (strategy : List (String × String)) (start : Opts K) (a b : Option K)
    (u : String → K) (hrand : ∀ opt, strategy.lookup opt ≠ some "random") :
    ohCall strategy start { iternow := a, itermax := b, endOpts := some [] } u =
      ohCall strategy start { iternow := a, itermax := b } u := by
  unfold ohCall
  congr 1
  suffices h : ∀ rest : Opts K,
      ohLoop strategy start { iternow := a, itermax := b, endOpts := some [] } u rest =
        ohLoop strategy start { iternow := a, itermax := b } u rest from h start
  intro rest
  induction rest with
  | nil => rfl
  | cons x rest ih =>
    obtain ⟨opt, v⟩ := x
    rw [ohLoop, ohLoop, ih]
    split
    · rfl
    · next name hl =>
      have : ohStrategy name start opt { iternow := a, itermax := b, endOpts := some [] } (u opt) =
          ohStrategy name start opt { iternow := a, itermax := b } (u opt) := by
        have hne : name ≠ "random" := fun h => hrand opt (h ▸ hl)
        unfold ohStrategy ohExpDecay ohLinVariation ohNonlinMod
        simp only [startEnd_nil, hne, if_false]
      rw [this]

/-- The two programs agree on the parts of the optimizer that matter for the run. -/
def SameCore (a b : Opt n d K) : Prop :=
  a.swarm = b.swarm ∧ a.top = b.top ∧ a.vhMem = b.vhMem ∧ a.bhMem = b.bhMem

theorem sched_iterate {cfg : Config n d K} (hk : cfg.kind = .globalBest)
    (hf1 : ∀ a, cfg.ftol = XR.fin a → a ≤ 0) (hf2 : cfg.ftol ≠ XR.pinf) (hw : 0 < cfg.window)
    (hrand : ∀ opt, cfg.ohStrategy.lookup opt ≠ some "random")
    (f : Mat n d K → Except Err (Costs n K)) (r : Draw n d K) (iters i : Nat) (q : List Bool)
    (s t : Opt n d K) (hst : SameCore s t) :
    (∃ t' e, iterate cfg f r iters i q t = (t', .error e) ∧
      schedStep cfg f [] r iters i s = .error e) ∨
    (∃ t' q' o s', iterate cfg f r iters i q t = (t', .ok (.continue q')) ∧
      schedStep cfg f [] r iters i s = .ok (o, s') ∧ SameCore s' t') := by
  obtain ⟨e1, e2, e3, e4⟩ := hst
  unfold iterate schedStep
  rw [e1, e2, e3, e4]
  cases he : f t.swarm.position with
  | error e => exact Or.inl ⟨_, _, rfl, rfl⟩
  | ok c =>
    dsimp only
    rw [callGbest_star cfg (by rw [hk]; trivial)]
    have hsw : ({ t.swarm with currentCost := c, pbestCost := (computePbest { t.swarm with currentCost := c }).2, pbestPos := (computePbest { t.swarm with currentCost := c }).1 } : Swarm n d K) =
        (recordEval c t).swarm := rfl
    rw [hsw]
    have htop : (recordEval c t).top = t.top := rfl
    rw [htop]
    cases hgb : starGbest t.top (recordEval c t).swarm with
    | mk t1 o =>
      cases o with
      | error e => exact Or.inl ⟨_, _, rfl, rfl⟩
      | ok b =>
        dsimp only
        have hstop : (decide (¬ i < cfg.window) && (dequeAppend cfg.window q (ftolDelta cfg.ftol
            (recordBest t1 b (recordEval c t)).swarm.bestCostVal
            (recordEval c t).swarm.bestCostVal)).all id) = false := by
          have : ∀ x y, ftolDelta cfg.ftol x y = false := by
            intro x y
            have := not_small hf1 hf2 y x
            unfold SmallChange at this
            unfold ftolDelta
            simpa using this
          rw [this, dequeAppend_not_all hw]; simp
        rw [hstop]
        simp only [Bool.false_eq_true, if_false]
        unfold moveSwarm callOptions velBounds
        rw [hk]
        dsimp only
        rw [ohCall_nil _ _ _ _ _ hrand]
        cases ho : ohCall cfg.ohStrategy cfg.options
            { iternow := some (i : K), itermax := some (iters : K) } r.oh with
        | error e => exact Or.inl ⟨_, _, rfl, rfl⟩
        | ok o =>
          dsimp only
          dsimp only [recordBest, recordEval, Opt.populateHistory]
          generalize hvv : computeVelocity _ cfg.clamp cfg.vhStrategy t.vhMem cfg.bounds r.r1 r.r2 = vv
          obtain ⟨vm, ve⟩ := vv
          cases ve with
          | error e => exact Or.inl ⟨_, _, rfl, rfl⟩
          | ok v =>
            dsimp only
            unfold callPosition
            rw [hk]
            dsimp only
            generalize hpp : computePosition _ cfg.bounds cfg.bhStrategy t.bhMem r.bh = pp
            obtain ⟨pm, pe⟩ := pp
            cases pe with
            | error e => exact Or.inl ⟨_, _, rfl, rfl⟩
            | ok p =>
              exact Or.inr ⟨_, _, _, _, rfl, rfl, rfl, rfl, rfl, rfl⟩

theorem sched_loop {cfg : Config n d K} (hk : cfg.kind = .globalBest)
    (hf1 : ∀ a, cfg.ftol = XR.fin a → a ≤ 0) (hf2 : cfg.ftol ≠ XR.pinf) (hw : 0 < cfg.window)
    (hrand : ∀ opt, cfg.ohStrategy.lookup opt ≠ some "random")
    (f : Nat → Mat n d K → Except Err (Costs n K)) (env : Nat → Draw n d K) (iters m i : Nat)
    (q : List Bool) (s t : Opt n d K) (hst : SameCore s t) :
    (∃ t' e, loop cfg f env iters m i q t = (t', .error e) ∧
      schedLoop cfg f [] env iters m i s = .error e) ∨
    (∃ t' os s', loop cfg f env iters m i q t = (t', .ok ()) ∧
      schedLoop cfg f [] env iters m i s = .ok (os, s') ∧ SameCore s' t') := by
  induction m generalizing i q s t with
  | zero => exact Or.inr ⟨_, _, _, rfl, rfl, hst⟩
  | succ m ih =>
    rw [loop, schedLoop]
    rcases sched_iterate hk hf1 hf2 hw hrand (f i) (env i) iters i q s t hst with
      ⟨t', e, h1, h2⟩ | ⟨t', q', o, s', h1, h2, h3⟩
    · rw [h1, h2]; exact Or.inl ⟨_, _, rfl, rfl⟩
    · rw [h1, h2]
      dsimp only
      rcases ih (i + 1) q' s' t' h3 with ⟨t'', e, h4, h5⟩ | ⟨t'', os, s'', h4, h5, h6⟩
      · rw [h4, h5]; exact Or.inl ⟨_, _, rfl, rfl⟩
      · rw [h4, h5]; exact Or.inr ⟨_, _, _, rfl, rfl, h6⟩

/-- C63: with an empty `end_opts` (and no `random`), the tutorial's function does exactly what
`GlobalBestPSO.optimize` does without early stopping: same swarm, same returned pair, same
exception. -/
theorem C63_default_ends (cfg : Config n d K) (hk : cfg.kind = .globalBest)
    (hf1 : ∀ a, cfg.ftol = XR.fin a → a ≤ 0) (hf2 : cfg.ftol ≠ XR.pinf) (hw : 0 < cfg.window)
    (hrand : ∀ opt, cfg.ohStrategy.lookup opt ≠ some "random")
    (f : Nat → Mat n d K → Except Err (Costs n K)) (env : Nat → Draw n d K) (iters : Nat)
    (s : Opt n d K) :
    match schedRun cfg f [] env iters s with
    | .ok (_, s', c, x) => ∃ s'', optimize cfg f iters none env s = (s'', .ok (c, x)) ∧
        s''.swarm = s'.swarm
    | .error e => ∃ s'', optimize cfg f iters none env s = (s'', .error e) := by
  unfold schedRun optimize
  rw [if_neg (by simp)]
  dsimp only
  rcases sched_loop hk hf1 hf2 hw hrand f env iters iters 0 []
    { s with bhMem := some s.swarm.position, vhMem := some s.swarm.position,
             swarm := { s.swarm with pbestCost := fun _ => XR.pinf } }
    { prepare cfg s with openPools := s.openPools + (if (none : Option Nat).isSome then 1 else 0) }
    ⟨rfl, rfl, rfl, by simp [prepare, hk]⟩ with
    ⟨t', e, h1, h2⟩ | ⟨t', os, s', h1, h2, h3⟩
  · rw [h1, h2]; exact ⟨_, rfl⟩
  · rw [h1, h2]
    dsimp only
    unfold finish
    rw [h3.1]
    cases hc : t'.swarm.bestCost with
    | none => exact ⟨_, rfl⟩
    | some c =>
      dsimp only
      cases hm : npArgmin t'.swarm.pbestCost with
      | none => exact ⟨_, rfl⟩
      | some k => exact ⟨_, rfl, h3.1.symm⟩

end

/-- C63: `nonlin_mod` with `end_opts` in the tutorial's run stays between the start value and the
given end value in every pass and is exactly at the start value in the first pass. -/
theorem C63_nonlin_between {n d : Nat} (cfg : Config n d ℝ)
    (f : Nat → Mat n d ℝ → Except Err (Costs n ℝ)) (eo : Opts ℝ) (env : Nat → Draw n d ℝ)
    (iters : Nat) (s s' : Opt n d ℝ) (os : List (Opts ℝ)) (c : XR ℝ) (x : Vec d ℝ)
    (h : schedRun cfg f eo env iters s = .ok (os, s', c, x)) {c1 c2 : ℝ}
    (h1 : cfg.options.lookup "c1" = some c1) (h2 : cfg.options.lookup "c2" = some c2)
    {opt : String} {a e : ℝ} (ha : cfg.options.lookup opt = some a) (he : eo.lookup opt = some e)
    (hst : cfg.ohStrategy.lookup opt = some "nonlin_mod") :
    ∀ k (hk : k < os.length), ∃ v, os[k].lookup opt = some v ∧ Between a e v ∧ (k = 0 → v = a) := by
  obtain ⟨hl, hko⟩ := schedRun_options h
  intro k hk
  have hkv := C33_keys_and_values _ _ _ _ _ (hko k hk)
  obtain ⟨v, hv, -, -, hval⟩ := forall₂_lookup hkv.2 (fun a b h => h.1) ha
  refine ⟨v, hv, ?_⟩
  have hval := hval _ hst
  obtain ⟨v', hv', hb, h0, -⟩ := C34_nonlin_between (kw :=
    { iternow := some (k : ℝ), itermax := some (iters : ℝ), endOpts := some eo }) h1 h2 ha
    (.given opt eo e rfl he) rfl rfl
    (by exact_mod_cast (by omega : 0 < iters)) (by exact_mod_cast Nat.zero_le k)
    (by exact_mod_cast (by omega : k ≤ iters)) (by norm_num)
  have heq : ohNonlinMod cfg.options opt
      { iternow := some (k : ℝ), itermax := some (iters : ℝ), endOpts := some eo } = .ok v := by
    simpa [ohStrategy] using hval
  rw [heq] at hv'
  cases hv'
  exact ⟨hb, fun hk0 => h0 (by rw [hk0]; simp)⟩

/-- Non-vacuity: the tutorial's function really runs, with end values for `w` (`lin_variation`) and
`c1` (`random`), three passes. -/
example : (match construct { Ex.gcfg 2 1 with
        ohStrategy := [("w", "lin_variation"), ("c1", "random")] } (Ex.init 2 1) (Ex.init 2 1) with
    | .ok s => match schedRun { Ex.gcfg 2 1 with
          ohStrategy := [("w", "lin_variation"), ("c1", "random")] } (Ex.sphere 2 1)
          [("w", 1 / 5), ("c1", 5 / 2)] (fun _ => Ex.draw 2 1) 3 s with
      | .ok (os, _) => decide (os = [[("c1", 3 / 2), ("c2", 1 / 3), ("w", 1 / 2)],
          [("c1", 3 / 2), ("c2", 1 / 3), ("w", 2 / 5)], [("c1", 3 / 2), ("c2", 1 / 3), ("w", 3 / 10)]])
      | _ => false
    | _ => false) = true := by decide +kernel

/-- Non-vacuity of `C63_default_ends`. -/
example : (match construct { Ex.gcfg 2 1 with ohStrategy := [("w", "lin_variation")] }
      (Ex.init 2 1) (Ex.init 2 1) with
    | .ok s => match schedRun { Ex.gcfg 2 1 with ohStrategy := [("w", "lin_variation")] }
          (Ex.sphere 2 1) [] (fun _ => Ex.draw 2 1) 3 s with
      | .ok (_, s', _) => decide (s'.swarm.options = [("c1", 1 / 2), ("c2", 1 / 3), ("w", 13 / 30)])
      | _ => false
    | _ => false) = true := by decide +kernel

end PySwarms
