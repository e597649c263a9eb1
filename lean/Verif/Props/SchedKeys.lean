import Verif.Props.StartRuns

/-!
# C63: schedules for other options than c1, c2 and w
-/

set_option linter.unusedSectionVars false

namespace PySwarms

variable {n d : Nat} {K : Type} [Field K] [LinearOrder K] [IsStrictOrderedRing K] [Transc K]
  [FloorRing K]

theorem startEnd_other {start : Opts K} {opt : String} {kw : OHKw K} (hkw : kw.endOpts = none)
    (ho : opt ∉ ["c1", "c2", "w"]) : startEnd start opt kw = .error .keyError := by
  simp only [List.mem_cons, List.not_mem_nil, or_false, not_or] at ho
  obtain ⟨h1, h2, h3⟩ := ho
  unfold startEnd
  rw [hkw]
  split
  · have e1 : (opt == "w") = false := by simpa using h3
    have e2 : (opt == "c1") = false := by simpa using h1
    have e3 : (opt == "c2") = false := by simpa using h2
    simp only [List.lookup, e1, e2, e3]
    split
    · next h => cases h
    · rfl
  · rfl

theorem ohStrategy_other {name : String} {start : Opts K} {opt : String} {kw : OHKw K}
    (hkw : kw.endOpts = none) (ho : opt ∉ ["c1", "c2", "w"]) (u : K) :
    ohStrategy name start opt kw u = .error .keyError := by
  unfold ohStrategy ohExpDecay ohLinVariation ohNonlinMod ohRandom
  simp only [startEnd_other hkw ho, hkw]
  repeat' split
  all_goals rfl

theorem ohLoop_other {strategy : List (String × String)} {start : Opts K} {kw : OHKw K}
    (hkw : kw.endOpts = none) {u : String → K} {l : Opts K} {opt name : String}
    (hm : opt ∈ l.map Prod.fst) (hs : strategy.lookup opt = some name)
    (ho : opt ∉ ["c1", "c2", "w"]) : ∃ e, ohLoop strategy start kw u l = .error e := by
  induction l with
  | nil => cases hm
  | cons a l ih =>
    obtain ⟨opt', v'⟩ := a
    simp only [List.map_cons, List.mem_cons] at hm
    rw [ohLoop]
    rcases hm with rfl | hm
    · rw [hs]
      dsimp only
      rw [ohStrategy_other hkw ho]
      exact ⟨_, rfl⟩
    · obtain ⟨e, he⟩ := ih hm
      split
      · rw [he]; exact ⟨_, rfl⟩
      · split
        · exact ⟨_, rfl⟩
        · rw [he]; exact ⟨_, rfl⟩

/-- C63: the built-in optimizers can vary `c1`, `c2` and `w` only.  If `oh_strategy` names another
entry of the options (`k`, `p`, `r`, …), with whatever strategy, no call of `optimize` with at least
one iteration returns: there is no default end value for it, and `optimize` cannot be given one. -/
theorem C63_other_option (cfg : Config n d K) (hk : cfg.kind ≠ .binary) (opt name : String)
    (ho : opt ∉ ["c1", "c2", "w"]) (hm : opt ∈ cfg.options.map Prod.fst)
    (hs : cfg.ohStrategy.lookup opt = some name) (s : Opt n d K) (hr : Reachable cfg s)
    (ev : Nat → Mat n d K → Except Err (Costs n K)) (iters : Nat) (hit : 1 ≤ iters)
    (nproc : Option Nat) (env : Nat → Draw n d K) (v : XR K × Vec d K) :
    (optimize cfg ev iters nproc env s).2 ≠ .ok v := by
  refine optimize_first_not_ok cfg (reachable_window hr) ev iters hit nproc env s ?_ v
  intro c t g _ _
  have hne : cfg.ohStrategy.isEmpty = false := by
    cases hc : cfg.ohStrategy with
    | nil => rw [hc] at hs; cases hs
    | cons a l => rfl
  have he : ∃ e, callOptions cfg iters 0 (env 0)
      (recordBest t g (recordEval c (startState cfg nproc s))).swarm = .error e := by
    unfold callOptions ohCall
    simp only [hne, Bool.false_eq_true, if_false]
    cases hkk : cfg.kind <;> first
      | exact absurd hkk hk
      | exact ohLoop_other rfl hm hs ho
  obtain ⟨e, he⟩ := he
  unfold moveSwarm
  rw [he]
  exact ⟨_, _, rfl⟩

theorem ohLoop_strategies {s1 s2 : List (String × String)} {start : Opts K} {kw : OHKw K}
    {u : String → K} {l : Opts K} (h : ∀ o ∈ l.map Prod.fst, s1.lookup o = s2.lookup o) :
    ohLoop s1 start kw u l = ohLoop s2 start kw u l := by
  induction l with
  | nil => rfl
  | cons a l ih =>
    obtain ⟨o, v⟩ := a
    rw [ohLoop, ohLoop, h o (by simp), ih fun o' ho' => h o' (by simp [ho'])]

theorem ohLoop_none {strategy : List (String × String)} {start : Opts K} {kw : OHKw K}
    {u : String → K} {l : Opts K} (h : ∀ o ∈ l.map Prod.fst, strategy.lookup o = none) :
    ohLoop strategy start kw u l = .ok l := by
  induction l with
  | nil => rfl
  | cons a l ih =>
    obtain ⟨o, v⟩ := a
    rw [ohLoop, h o (by simp), ih fun o' ho' => h o' (by simp [ho'])]

/-- C63: entries of `oh_strategy` for names that are not among the options (a misspelt `"W"`) are
ignored, whatever strategy they name: nothing is raised, and every call does what it does without
them. -/
theorem C63_ignored_entries (cfg : Config n d K) (strat : List (String × String))
    (h : ∀ o ∈ cfg.options.map Prod.fst, strat.lookup o = cfg.ohStrategy.lookup o)
    (ev : Nat → Mat n d K → Except Err (Costs n K)) (iters : Nat) (nproc : Option Nat)
    (env : Nat → Draw n d K) (s : Opt n d K) :
    optimize { cfg with ohStrategy := strat } ev iters nproc env s =
      optimize cfg ev iters nproc env s := by
  have hcall : ∀ kw u, ohCall strat cfg.options kw u = ohCall cfg.ohStrategy cfg.options kw u := by
    intro kw u
    unfold ohCall
    rw [ohLoop_strategies h]
    by_cases h1 : cfg.ohStrategy.isEmpty = true
    · rw [if_pos h1]
      rw [List.isEmpty_iff] at h1
      rw [h1, ohLoop_none fun _ _ => rfl, ite_self]
    · rw [if_neg h1]
      by_cases h2 : strat.isEmpty = true
      · rw [if_pos h2]
        rw [List.isEmpty_iff] at h2
        rw [ohLoop_none fun o ho => by rw [← h o ho, h2]; rfl]
      · rw [if_neg h2]
  refine optimize_congr { cfg with ohStrategy := strat } cfg rfl rfl rfl rfl ?_ ev iters nproc env s
  intro r iters i s
  have ho : ∀ sw, callOptions { cfg with ohStrategy := strat } iters i r sw =
      callOptions cfg iters i r sw := by
    intro sw
    unfold callOptions
    dsimp only
    rw [hcall]
  unfold moveSwarm
  rw [ho]
  rfl

/-- Non-vacuity: LocalBestPSO with `oh_strategy={'k': 'lin_variation'}` where `k` is among the options
raises `KeyError`; with the misspelt `'W'` it runs. -/
example : (match construct { Ex.rcfg 3 2 false 2 with
        options := [("c1", 1), ("c2", 1), ("w", 1), ("k", 2), ("p", 1)]
        ohStrategy := [("k", "lin_variation")] } (Ex.init 3 2) (Ex.init 3 2) with
    | .ok s => match optimize { Ex.rcfg 3 2 false 2 with
          options := [("c1", 1), ("c2", 1), ("w", 1), ("k", 2), ("p", 1)]
          ohStrategy := [("k", "lin_variation")] }
        (Ex.sphere 3 2) 2 none (fun _ => Ex.draw 3 2) s with
      | (_, .error e) => decide (e = .keyError)
      | _ => false
    | _ => false) = true ∧
    (match construct { Ex.gcfg 2 2 with ohStrategy := [("W", "nope")] } (Ex.init 2 2) (Ex.init 2 2) with
    | .ok s => match optimize { Ex.gcfg 2 2 with ohStrategy := [("W", "nope")] }
        (Ex.sphere 2 2) 2 none (fun _ => Ex.draw 2 2) s with
      | (s', .ok _) => decide (s'.costHistory.length = 2)
      | _ => false
    | _ => false) = true := by decide +kernel

end PySwarms
