import Verif.Props.Moves

/-! # C53: when only the name of a strategy is wrong -/

set_option linter.unusedSectionVars false

namespace PySwarms

variable {n d : Nat} {K : Type} [Field K] [LinearOrder K] [IsStrictOrderedRing K] [FloorRing K]
  [Transc K]

/-- What happened in the first iteration of a call that returned. -/
theorem optimize_first_ok (cfg : Config n d K) (hw : 0 < cfg.window)
    (ev : Nat → Mat n d K → Except Err (Costs n K)) (iters : Nat) (hit : 0 < iters)
    (nproc : Option Nat) (env : Nat → Draw n d K) (s : Opt n d K) (v : XR K × Vec d K)
    (hv : (optimize cfg ev iters nproc env s).2 = .ok v) :
    nproc ≠ some 0 ∧ ∃ c t g s', ev 0 s.swarm.position = .ok c ∧
      callGbest cfg (env 0).oracle s.top (recordEval c (startState cfg nproc s)).swarm =
        (t, .ok g) ∧
      moveSwarm cfg (env 0) iters 0 (recordBest t g (recordEval c (startState cfg nproc s))) =
        (s', .ok ()) := by
  by_contra hcon
  have hp : nproc ≠ some 0 := by
    intro hp
    rw [optimize, if_pos hp] at hv
    cases hv
  refine optimize_first_not_ok cfg hw ev iters hit nproc env s ?_ v hv
  intro c t g hc hg
  cases hm : moveSwarm cfg (env 0) iters 0
      (recordBest t g (recordEval c (startState cfg nproc s))) with
  | mk s' res =>
    cases res with
    | error e => exact ⟨s', e, rfl⟩
    | ok u => exact absurd ⟨hp, c, t, g, s', hc, hg, hm⟩ hcon

/-- A velocity update that works with some strategy raises `KeyError` with an unknown one. -/
theorem computeVelocity_unknown {strategy : String} (hs : strategy ∉ vhStrategies) (name : String)
    (sw : Swarm n d K) (clamp : Option (Clamp d K)) (mem : Option (Mat n d K))
    (bounds : Option (Bounds d K)) (r1 r2 : Mat n d K) (vm : Option (Mat n d K)) (v : Mat n d K)
    (hw : computeVelocity sw clamp name mem bounds r1 r2 = (vm, .ok v)) :
    ∃ vm', computeVelocity sw clamp strategy mem bounds r1 r2 = (vm', .error .keyError) := by
  unfold computeVelocity at hw ⊢
  cases h1 : sw.options.lookup "c1" with
  | none => rw [h1] at hw; cases hw
  | some c1 =>
    cases h2 : sw.options.lookup "c2" with
    | none => rw [h1, h2] at hw; cases hw
    | some c2 =>
      cases h3 : sw.options.lookup "w" with
      | none => rw [h1, h2, h3] at hw; cases hw
      | some w =>
        rw [h1, h2, h3] at hw
        have hu := vhCall_unknown hs mem clamp
          { position := some sw.position, bounds := some bounds } (tempVelocity c1 c2 w r1 r2 sw)
        simp only [hu]
        cases hbp : sw.bestPos with
        | empty =>
          rw [hbp] at hw
          by_cases hd0 : d = 0
          · simp only [if_pos hd0]; exact ⟨_, rfl⟩
          · by_cases hd1 : d = 1
            · simp only [if_neg hd0, if_pos hd1]
              split <;> exact ⟨_, rfl⟩
            · simp only [if_neg hd0, if_neg hd1] at hw
              cases hw
        | _ => exact ⟨_, rfl⟩

/-- C53: when nothing but the name of the velocity strategy is wrong.  If the call would return with
some other `vh_strategy`, then with the unknown one it raises `KeyError`, in the first iteration, after
one evaluation, and nothing has moved. -/
theorem C53_only_velocity (cfg : Config n d K) (hs : cfg.vhStrategy ∉ vhStrategies)
    (s : Opt n d K) (hr : Reachable cfg s) (ev : Nat → Mat n d K → Except Err (Costs n K))
    (iters : Nat) (hit : 1 ≤ iters) (nproc : Option Nat) (env : Nat → Draw n d K)
    (name : String) (v : XR K × Vec d K)
    (hv : (optimize { cfg with vhStrategy := name } ev iters nproc env s).2 = .ok v) :
    ∃ t c, optimize cfg ev iters nproc env s = (t, .error .keyError) ∧
      ev 0 s.swarm.position = .ok c ∧ t.evals = s.evals ++ [(s.swarm.position, c)] ∧
      t.costHistory.length = s.costHistory.length + 1 ∧
      t.swarm.position = s.swarm.position ∧ t.swarm.velocity = s.swarm.velocity := by
  obtain ⟨hp, c, t, g, s', hc, hg, hm⟩ := optimize_first_ok { cfg with vhStrategy := name }
    (show 0 < Config.window cfg from reachable_window hr) ev iters hit nproc env s v hv
  have hst : startState { cfg with vhStrategy := name } nproc s = startState cfg nproc s := rfl
  rw [hst] at hg hm
  have hg' : callGbest cfg (env 0).oracle s.top (recordEval c (startState cfg nproc s)).swarm =
    (t, .ok g) := hg
  have hcs := moveSwarm_cases { cfg with vhStrategy := name } (env 0) iters 0
    (recordBest t g (recordEval c (startState cfg nproc s)))
  rw [hm] at hcs
  cases hcs with
  | ok o vm w bm p ho hw hq =>
    have ho' : callOptions cfg iters 0 (env 0)
      (recordBest t g (recordEval c (startState cfg nproc s))).swarm = .ok o := ho
    have hvel : ∃ vm', computeVelocity
        { (recordBest t g (recordEval c (startState cfg nproc s))).swarm with options := o }
        cfg.clamp cfg.vhStrategy (recordBest t g (recordEval c (startState cfg nproc s))).vhMem
        (velBounds cfg) (env 0).r1 (env 0).r2 = (vm', .error .keyError) :=
      computeVelocity_unknown hs name _ _ _ _ _ _ _ _ hw
    obtain ⟨vm', hvel⟩ := hvel
    have hmv : moveSwarm cfg (env 0) iters 0
        (recordBest t g (recordEval c (startState cfg nproc s))) =
        ({ recordBest t g (recordEval c (startState cfg nproc s)) with
            vhMem := vm'
            swarm := { (recordBest t g (recordEval c (startState cfg nproc s))).swarm with
              options := o } }, .error .keyError) := by
      unfold moveSwarm
      rw [ho']
      dsimp only
      rw [hvel]
    refine ⟨_, c, optimize_first_error cfg (reachable_window hr) ev iters hit nproc hp env s c t g _ _
      hc hg' hmv, hc, rfl, ?_, rfl, rfl⟩
    show (s.costHistory ++ [_]).length = _
    rw [List.length_append]; rfl

/-- C53: when nothing but the name of the boundary strategy is wrong.  If the call would return with
some other `bh_strategy`, then with the unknown one it raises `KeyError`, in the first iteration, after
one evaluation; the positions have not moved. -/
theorem C53_only_boundary (cfg : Config n d K) (hk : cfg.kind ≠ .binary) (b : Bounds d K)
    (hb : cfg.bounds = some b) (hs : cfg.bhStrategy ∉ bhStrategies)
    (s : Opt n d K) (hr : Reachable cfg s) (ev : Nat → Mat n d K → Except Err (Costs n K))
    (iters : Nat) (hit : 1 ≤ iters) (nproc : Option Nat) (env : Nat → Draw n d K)
    (name : String) (v : XR K × Vec d K)
    (hv : (optimize { cfg with bhStrategy := name } ev iters nproc env s).2 = .ok v) :
    ∃ t c, optimize cfg ev iters nproc env s = (t, .error .keyError) ∧
      ev 0 s.swarm.position = .ok c ∧ t.evals = s.evals ++ [(s.swarm.position, c)] ∧
      t.costHistory.length = s.costHistory.length + 1 ∧
      t.swarm.position = s.swarm.position := by
  obtain ⟨hp, c, t, g, s', hc, hg, hm⟩ := optimize_first_ok { cfg with bhStrategy := name }
    (show 0 < Config.window cfg from reachable_window hr) ev iters hit nproc env s v hv
  have hst : startState { cfg with bhStrategy := name } nproc s = startState cfg nproc s := rfl
  rw [hst] at hg hm
  have hg' : callGbest cfg (env 0).oracle s.top (recordEval c (startState cfg nproc s)).swarm =
    (t, .ok g) := hg
  have hcs := moveSwarm_cases { cfg with bhStrategy := name } (env 0) iters 0
    (recordBest t g (recordEval c (startState cfg nproc s)))
  rw [hm] at hcs
  have hpos : ∀ (sw : Swarm n d K) mem, callPosition cfg (env 0) mem sw =
      (mem, .error .keyError) := by
    intro sw mem
    unfold callPosition computePosition
    rw [hb]
    dsimp only
    rw [C14_unknown_strategy _ hs]
    cases hkk : cfg.kind <;> first
      | exact absurd hkk hk
      | rfl
  cases hcs with
  | ok o vm w bm p ho hw hq =>
    have ho' : callOptions cfg iters 0 (env 0)
      (recordBest t g (recordEval c (startState cfg nproc s))).swarm = .ok o := ho
    have hw' : computeVelocity
        { (recordBest t g (recordEval c (startState cfg nproc s))).swarm with options := o }
        cfg.clamp cfg.vhStrategy (recordBest t g (recordEval c (startState cfg nproc s))).vhMem
        (velBounds cfg) (env 0).r1 (env 0).r2 = (vm, .ok w) := hw
    have hmv : moveSwarm cfg (env 0) iters 0
        (recordBest t g (recordEval c (startState cfg nproc s))) =
        ({ recordBest t g (recordEval c (startState cfg nproc s)) with
            vhMem := vm
            swarm := { (recordBest t g (recordEval c (startState cfg nproc s))).swarm with
              options := o, velocity := w } }, .error .keyError) := by
      unfold moveSwarm
      rw [ho']
      dsimp only
      rw [hw']
      dsimp only
      rw [hpos]
    refine ⟨_, c, optimize_first_error cfg (reachable_window hr) ev iters hit nproc hp env s c t g _ _
      hc hg' hmv, hc, rfl, ?_, rfl⟩
    show (s.costHistory ++ [_]).length = _
    rw [List.length_append]; rfl

/-- Non-vacuity: with the known names the runs return. -/
example : (match construct (Ex.ccfg "unmodified" "nope") Ex.cinit Ex.cinit,
      construct (Ex.ccfg "nope" "periodic") Ex.cinit Ex.cinit with
    | .ok s, .ok s' => (match optimize (Ex.ccfg "unmodified" "periodic") (Ex.sphere 2 1) 3 none
        (fun _ => Ex.draw 2 1) s, optimize (Ex.ccfg "unmodified" "periodic") (Ex.sphere 2 1) 3 none
        (fun _ => Ex.draw 2 1) s' with
      | (_, .ok _), (_, .ok _) => true
      | _, _ => false)
    | _, _ => false) = true := by decide +kernel

end PySwarms
