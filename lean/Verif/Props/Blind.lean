import Verif.Props.Solo
import Mathlib.Algebra.BigOperators.Group.Finset.Basic
import Mathlib.Algebra.Order.BigOperators.Group.Finset

/-!
# Without any attraction the particles drift (C123)
-/

set_option linter.unusedSectionVars false
set_option linter.unusedSimpArgs false

namespace PySwarms

variable {n n' d : Nat} {K : Type} [Field K] [LinearOrder K] [IsStrictOrderedRing K] [Transc K]
  [FloorRing K]

/-- C123: with `c1 = c2 = 0` the objective has no influence on the search.  Two optimizers, possibly
with different objectives, numbers of particles, topologies, stopping rules and numbers of
iterations; particle `i` of the first and particle `i'` of the second start at the same position with
the same velocity, and the boundary handlers (BinaryPSO: the position updates) draw the same numbers:
in every iteration that both calls record, they are at the same position with the same velocity. -/
theorem C123_blind (cfg : Config n d K) (cfg' : Config n' d K) (hcfg : SameSolo cfg cfg')
    (hc1 : cfg.options.lookup "c1" = some 0)
    (ev : Nat → Mat n d K → Except Err (Costs n K)) (ev' : Nat → Mat n' d K → Except Err (Costs n' K))
    (iters iters' : Nat) (nproc nproc' : Option Nat)
    (env : Nat → Draw n d K) (env' : Nat → Draw n' d K) (s : Opt n d K) (s' : Opt n' d K)
    (ho : s.swarm.options = cfg.options) (ho' : s'.swarm.options = cfg'.options)
    (i : Fin n) (i' : Fin n') (hp : s.swarm.position i = s'.swarm.position i')
    (hv : s.swarm.velocity i = s'.swarm.velocity i')
    (hr : ∀ t, (env t).bh = (env' t).bh ∧ (env t).thr = (env' t).thr) (t : Nat) :
    (∀ P P', (optimize cfg ev iters nproc env s).1.posHistory[s.posHistory.length + t]? = some P →
      (optimize cfg' ev' iters' nproc' env' s').1.posHistory[s'.posHistory.length + t]? = some P' →
      P i = P' i') ∧
    (∀ V V', (optimize cfg ev iters nproc env s).1.velocityHistory[
        s.velocityHistory.length + t]? = some V →
      (optimize cfg' ev' iters' nproc' env' s').1.velocityHistory[
        s'.velocityHistory.length + t]? = some V' → V i = V' i') := by
  by_cases hp0 : nproc = some 0
  · subst hp0
    unfold optimize
    simp only [if_true]
    refine ⟨fun P P' h => ?_, fun V V' h => ?_⟩
    · rw [List.getElem?_eq_none (by omega)] at h; cases h
    · rw [List.getElem?_eq_none (by omega)] at h; cases h
  by_cases hp0' : nproc' = some 0
  · subst hp0'
    have hl : (optimize cfg' ev' iters' (some 0) env' s').1.posHistory = s'.posHistory ∧
        (optimize cfg' ev' iters' (some 0) env' s').1.velocityHistory = s'.velocityHistory := by
      unfold optimize
      simp only [if_true, prepare, and_self]
    rw [hl.1, hl.2]
    refine ⟨fun P P' _ h => ?_, fun V V' _ h => ?_⟩
    · rw [List.getElem?_eq_none (by omega)] at h; cases h
    · rw [List.getElem?_eq_none (by omega)] at h; cases h
  have r := optimize_records cfg ev iters nproc hp0 env s
  have r' := optimize_records cfg' ev' iters' nproc' hp0' env' s'
  rw [r.pos, r'.pos, r.velocity, r'.velocity]
  exact loop_alike (pb := False) hcfg i i' (fun h => h.elim) env env' iters iters' (fun _ => hc1)
    (fun t => ⟨fun h => h.elim, (hr t).1, (hr t).2⟩) iters iters' 0 [] []
    (startState cfg nproc s) (startState cfg' nproc' s')
    (start_alike hcfg hp hv (fun h => h.elim) ho ho' nproc nproc') t

/-! ### The path -/

/-- An optimizer that is not binary, with `c1 = c2 = 0`, inertia `w` and no bounds, clamp, velocity
strategy or schedule. -/
structure OnlyInertia (cfg : Config n d K) (w : K) : Prop where
  continuous : cfg.kind ≠ .binary
  c1 : cfg.options.lookup "c1" = some 0
  c2 : cfg.options.lookup "c2" = some 0
  w : cfg.options.lookup "w" = some w
  schedule : cfg.ohStrategy = []
  bounds : cfg.bounds = none
  clamp : cfg.clamp = none
  vh : cfg.vhStrategy = "unmodified"

theorem moveSwarm_drift {cfg : Config n d K} {w : K} (hcfg : OnlyInertia cfg w) {r : Draw n d K}
    {iters t : Nat} {s s1 : Opt n d K} (hm : moveSwarm cfg r iters t s = (s1, .ok ())) :
    s1.swarm.velocity = (fun i j => w * s.swarm.velocity i j) ∧
      s1.swarm.position = fun i j => s.swarm.position i j + w * s.swarm.velocity i j := by
  have hc := moveSwarm_cases cfg r iters t s
  rw [hm] at hc
  cases hc with
  | ok o vm v bm p ho hv hp =>
    have hoo : o = cfg.options := by
      unfold callOptions at ho
      rw [hcfg.schedule] at ho
      have hk := hcfg.continuous
      cases h : cfg.kind <;> rw [h] at ho <;> first | exact absurd h hk | (simp [ohCall] at ho; exact ho.symm)
    subst hoo
    obtain ⟨c1, c2, w', e1, e2, e3, e4⟩ := computeVelocity_ok hv
    dsimp only at e1 e2 e3
    rw [hcfg.c1] at e1; rw [hcfg.c2] at e2; rw [hcfg.w] at e3
    cases e1; cases e2; cases e3
    rw [hcfg.vh, hcfg.clamp] at e4
    have hvv : v = fun i j => w * s.swarm.velocity i j := by
      unfold vhCall at e4
      rw [if_pos rfl] at e4
      have := Except.ok.inj (Prod.mk.inj e4).2
      rw [← this]
      funext i j
      simp [vhUnmodified, clampOpt, tempVelocity]
    subst hvv
    refine ⟨rfl, ?_⟩
    unfold callPosition at hp
    have hk := hcfg.continuous
    have key : computePosition { s.swarm with options := cfg.options, velocity := fun i j => w * s.swarm.velocity i j }
        cfg.bounds cfg.bhStrategy s.bhMem r.bh = (bm, .ok p) →
        p = fun i j => s.swarm.position i j + w * s.swarm.velocity i j := by
      intro q
      unfold computePosition at q
      rw [hcfg.bounds] at q
      exact (Except.ok.inj (Prod.mk.inj q).2).symm
    cases h : cfg.kind <;> rw [h] at hp <;> first | exact absurd h hk | exact key hp

theorem loop_drift {cfg : Config n d K} {w : K} (hcfg : OnlyInertia cfg w)
    (ev : Nat → Mat n d K → Except Err (Costs n K)) (env : Nat → Draw n d K) (iters m t : Nat)
    (q : List Bool) (s : Opt n d K) (u : Nat) :
    (∀ P, (loop cfg ev env iters m t q s).1.posHistory[s.posHistory.length + u]? = some P →
      ∀ i j, P i j = s.swarm.position i j + s.swarm.velocity i j * ∑ k ∈ Finset.range u, w ^ (k + 1)) ∧
    (∀ V, (loop cfg ev env iters m t q s).1.velocityHistory[s.velocityHistory.length + u]? = some V →
      ∀ i j, V i j = w ^ u * s.swarm.velocity i j) := by
  induction m generalizing t q s u with
  | zero =>
    simp only [loop]
    constructor
    · intro P h; rw [List.getElem?_eq_none (by omega)] at h; cases h
    · intro P h; rw [List.getElem?_eq_none (by omega)] at h; cases h
  | succ m ih =>
    obtain ⟨a1, a2, a3⟩ := loop_entry cfg ev env iters m t q s
    cases u with
    | zero =>
      refine ⟨fun P hP => ?_, fun V hP => ?_⟩
      · rw [a1 P hP]; simp
      · rw [a2 V hP]; simp
    | succ u =>
      rcases a3 with ⟨q1, s1, hi, p1, v1⟩ | ⟨a, b⟩
      · have hs1 : s1.swarm.velocity = (fun i j => w * s.swarm.velocity i j) ∧
            s1.swarm.position = fun i j => s.swarm.position i j + w * s.swarm.velocity i j := by
          have hc := iterate_cases cfg (ev t) (env t) iters t q s
          rw [hi] at hc
          cases hc with
          | moved c tp g _ he hg hns hm =>
            exact moveSwarm_drift (s := recordBest tp g (recordEval c s)) hcfg hm
        have := ih (t + 1) q1 s1 u
        rw [p1, v1, hs1.1, hs1.2] at this
        simp only [List.length_append, List.length_singleton] at this
        have ar : ∀ a : Nat, a + 1 + u = a + (u + 1) := by intro a; omega
        rw [loop, hi]
        simp only [ar] at this
        refine ⟨fun P hP i j => ?_, fun V hV i j => ?_⟩
        · rw [this.1 P hP i j, Finset.sum_range_succ', Finset.sum_congr rfl (fun k _ => pow_succ w (k + 1)),
            ← Finset.sum_mul]
          ring
        · rw [this.2 V hV i j]; ring
      · refine ⟨fun P h => ?_, fun V h => ?_⟩
        · rw [List.getElem?_eq_none (by omega)] at h; cases h
        · rw [List.getElem?_eq_none (by omega)] at h; cases h

/-- C123: without bounds, clamp, velocity strategy and schedule, `t` iterations after the start of the
call a particle that started at `x` with velocity `v` has the velocity `w ** t * v` and is at
`x + (w + w ** 2 + ... + w ** t) * v`. -/
theorem C123_path (cfg : Config n d K) (w : K) (hcfg : OnlyInertia cfg w)
    (ev : Nat → Mat n d K → Except Err (Costs n K)) (iters : Nat) (nproc : Option Nat)
    (env : Nat → Draw n d K) (s : Opt n d K) (t : Nat) :
    (∀ P, (optimize cfg ev iters nproc env s).1.posHistory[s.posHistory.length + t]? = some P →
      ∀ i j, P i j = s.swarm.position i j + s.swarm.velocity i j * ∑ k ∈ Finset.range t, w ^ (k + 1)) ∧
    (∀ V, (optimize cfg ev iters nproc env s).1.velocityHistory[s.velocityHistory.length + t]? = some V →
      ∀ i j, V i j = w ^ t * s.swarm.velocity i j) := by
  by_cases hp0 : nproc = some 0
  · subst hp0
    unfold optimize
    simp only [if_true]
    refine ⟨fun P h => ?_, fun V h => ?_⟩
    · rw [List.getElem?_eq_none (by simp [prepare])] at h; cases h
    · rw [List.getElem?_eq_none (by simp [prepare])] at h; cases h
  have r := optimize_records cfg ev iters nproc hp0 env s
  rw [r.pos, r.velocity]
  exact loop_drift hcfg ev env iters iters 0 [] (startState cfg nproc s) t

/-- C123: so with `0 ≤ w < 1` a particle never gets further than `w / (1 - w)` times its initial velocity from
its start. -/
theorem C123_reach (cfg : Config n d K) (w : K) (hcfg : OnlyInertia cfg w) (hw0 : 0 ≤ w) (hw1 : w < 1)
    (ev : Nat → Mat n d K → Except Err (Costs n K)) (iters : Nat) (nproc : Option Nat)
    (env : Nat → Draw n d K) (s : Opt n d K) (P : Mat n d K) (t : Nat)
    (h : (optimize cfg ev iters nproc env s).1.posHistory[s.posHistory.length + t]? = some P)
    (i : Fin n) (j : Fin d) :
    |P i j - s.swarm.position i j| ≤ |s.swarm.velocity i j| * (w / (1 - w)) := by
  rw [(C123_path cfg w hcfg ev iters nproc env s t).1 P h i j, add_sub_cancel_left, abs_mul]
  refine mul_le_mul_of_nonneg_left ?_ (abs_nonneg _)
  have hpos : 0 < 1 - w := by linarith
  have hsum : (∑ k ∈ Finset.range t, w ^ (k + 1)) * (1 - w) = w - w ^ (t + 1) := by
    clear h
    induction t with
    | zero => simp
    | succ t ih => rw [Finset.sum_range_succ, add_mul, ih]; ring
  rw [abs_of_nonneg (Finset.sum_nonneg fun k _ => pow_nonneg hw0 _), le_div_iff₀ hpos, hsum]
  have := pow_nonneg hw0 (t + 1)
  linarith

namespace Ex

/-- GlobalBestPSO with `c1 = c2 = 0` and `w = 1/2`. -/
def inertCfg (n : Nat) : Config n 1 ℚ :=
  { gcfg n 1 with options := [("c1", 0), ("c2", 0), ("w", 1 / 2)] }

/-- The positions of particle 0 in three iterations with the given objective, from 0 with velocity 1/2. -/
def inertPath (ev : Nat → Mat 2 1 ℚ → Except Err (Costs 2 ℚ)) : List ℚ :=
  match construct (inertCfg 2) (init 2 1) (init 2 1) with
  | .error _ => []
  | .ok s => (optimize (inertCfg 2) ev 3 none (fun _ => draw 2 1) s).1.posHistory.map fun x => x 0 0

end Ex

-- the configuration meets the hypotheses; the path is 0, 1/4, 3/8 for `x ** 2` and for `x + 5 t`
example : OnlyInertia (Ex.inertCfg 2) (1 / 2) ∧ SameSolo (Ex.inertCfg 2) (Ex.inertCfg 2) ∧
    Ex.inertPath (costOf Ex.squareOf) = [0, 1 / 4, 3 / 8] ∧
    Ex.inertPath (Ex.drift 2) = [0, 1 / 4, 3 / 8] :=
  ⟨⟨fun h => (by cases h), rfl, rfl, rfl, rfl, rfl, rfl, rfl⟩,
    ⟨⟨fun h => (by cases h), fun h => (by cases h)⟩, rfl, rfl, rfl, rfl, rfl, rfl, rfl, rfl⟩,
    by decide +kernel, by decide +kernel⟩

end PySwarms
