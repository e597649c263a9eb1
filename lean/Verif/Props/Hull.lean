import Verif.Props.Bounds
import Verif.Lemmas.Gbest

/-!
# Without inertia the swarm never leaves the box it started in (C65)
-/

set_option linter.unusedSectionVars false

namespace PySwarms

variable {n d : Nat} {K : Type} [Field K] [LinearOrder K] [IsStrictOrderedRing K] [Transc K]
  [FloorRing K]

/-- The attracting best position, once there is one, is inside the box. -/
def BestInBox (b : Bounds d K) : BestPos n d K → Prop
  | .empty => True
  | .single v => ∀ j, b.1 j ≤ v j ∧ v j ≤ b.2 j
  | .perParticle m => InBox b m

/-- Loop invariant. -/
def HullInv (b : Bounds d K) (s : Opt n d K) : Prop :=
  AllInside b s ∧ BestInBox b s.swarm.bestPos

theorem bestInBox_from {b : Bounds d K} {s : Swarm n d K} {g : GBest n d K} (hp : InBox b s.pbestPos)
    (hb : BestInBox b s.bestPos) (h : GbestFrom s g) : BestInBox b g.1 := by
  cases h with
  | prev => exact hb
  | single i => exact fun j => hp i j
  | rows bn i => exact fun a j => hp (bn a) j

/-- A clamp around 0 shortens velocities and keeps their sign. -/
theorem clampOpt_shortens {c : Option (Clamp d K)} (hc : ∀ c', c = some c' → ∀ j, c'.1 j ≤ 0 ∧ 0 ≤ c'.2 j)
    (v : Mat n d K) (i : Fin n) (j : Fin d) :
    (0 ≤ v i j → 0 ≤ clampOpt c v i j ∧ clampOpt c v i j ≤ v i j) ∧
    (v i j ≤ 0 → v i j ≤ clampOpt c v i j ∧ clampOpt c v i j ≤ 0) := by
  cases c with
  | none => simp [clampOpt]
  | some c =>
    obtain ⟨h1, h2⟩ := hc c rfl j
    simp only [clampOpt, applyClamp, decide_eq_true_eq]
    constructor
    · intro h
      split_ifs <;> constructor <;> linarith
    · intro h
      split_ifs <;> constructor <;> linarith

theorem attraction_in {lo hi x p g a e : K} (hx : lo ≤ x ∧ x ≤ hi) (hp : lo ≤ p ∧ p ≤ hi)
    (hg : lo ≤ g ∧ g ≤ hi) (ha : 0 ≤ a) (he : 0 ≤ e) (hae : a + e ≤ 1) :
    lo ≤ x + (a * (p - x) + e * (g - x)) ∧ x + (a * (p - x) + e * (g - x)) ≤ hi := by
  constructor
  · nlinarith [mul_nonneg ha (sub_nonneg.2 hp.1), mul_nonneg he (sub_nonneg.2 hg.1),
      mul_nonneg (sub_nonneg.2 hae) (sub_nonneg.2 hx.1)]
  · nlinarith [mul_nonneg ha (sub_nonneg.2 hp.2), mul_nonneg he (sub_nonneg.2 hg.2),
      mul_nonneg (sub_nonneg.2 hae) (sub_nonneg.2 hx.2)]

/-- The hypotheses of C65 on the configuration. -/
structure NoInertia (cfg : Config n d K) : Prop where
  kind : cfg.kind ≠ .binary
  bounds : cfg.bounds = none
  clamp : ∀ c, cfg.clamp = some c → ∀ j, c.1 j ≤ 0 ∧ 0 ≤ c.2 j
  vh : cfg.vhStrategy = "unmodified"
  oh : cfg.ohStrategy = []
  w : cfg.options.lookup "w" = some 0
  c : ∃ c1 c2, cfg.options.lookup "c1" = some c1 ∧ cfg.options.lookup "c2" = some c2 ∧ 0 ≤ c1 ∧
    0 ≤ c2 ∧ c1 + c2 ≤ 1

theorem hull_move {cfg : Config n d K} (hcfg : NoInertia cfg) {b : Bounds d K} {r : Draw n d K}
    (hr : r.Legal) (iters i : Nat) (s : Opt n d K) (hs : HullInv b s) :
    HullInv b (moveSwarm cfg r iters i s).1 := by
  obtain ⟨⟨h1, h2, h3, h4⟩, h5⟩ := hs
  have hcs := moveSwarm_cases cfg r iters i s
  generalize (moveSwarm cfg r iters i s).1 = s' at hcs ⊢
  generalize (moveSwarm cfg r iters i s).2 = o at hcs
  cases hcs with
  | optError e h => exact ⟨⟨h1, h2, h3, h4⟩, h5⟩
  | velError o vm e h hv => exact ⟨⟨h1, h2, h3, h4⟩, h5⟩
  | posError o vm v bm e h hv hp => exact ⟨⟨h1, h2, h3, h4⟩, h5⟩
  | ok o vm v bm p h hv hp =>
    have ho : o = cfg.options := by
      unfold callOptions ohCall at h
      rw [hcfg.oh] at h
      have hk := hcfg.kind
      cases hkk : cfg.kind <;> rw [hkk] at h hk <;> first
        | exact absurd rfl hk
        | (simp at h; exact h.symm)
    subst ho
    have hp' : p = fun i j => s.swarm.position i j + v i j := by
      unfold callPosition computePosition at hp
      rw [hcfg.bounds] at hp
      have hk := hcfg.kind
      cases hkk : cfg.kind <;> rw [hkk] at hp hk <;> first
        | exact absurd rfl hk
        | (simp only [Prod.mk.injEq, Except.ok.injEq] at hp; exact hp.2.symm)
    obtain ⟨c1, c2, w, e1, e2, e3, hvh⟩ := computeVelocity_ok hv
    obtain ⟨c1', c2', f1, f2, g1, g2, g3⟩ := hcfg.c
    simp only at e1 e2 e3
    rw [f1] at e1
    rw [f2] at e2
    rw [hcfg.w] at e3
    cases e1
    cases e2
    cases e3
    rw [hcfg.vh, vhCall, if_pos rfl, vhUnmodified] at hvh
    have hv' : v = clampOpt cfg.clamp (tempVelocity c1 c2 0 r.r1 r.r2
        { s.swarm with options := cfg.options }) := by
      have := congrArg Prod.snd hvh
      simp only [Except.ok.injEq] at this
      exact this.symm
    refine ⟨⟨?_, h2, h3, h4⟩, h5⟩
    intro a j
    simp only [hp', hv']
    have hbest : b.1 j ≤ s.swarm.bestPos.row s.swarm.position a j ∧
        s.swarm.bestPos.row s.swarm.position a j ≤ b.2 j := by
      unfold BestPos.row
      cases hbp : s.swarm.bestPos with
      | empty => exact h1 a j
      | single x => rw [hbp] at h5; exact h5 j
      | perParticle m => rw [hbp] at h5; exact h5 a j
    have hr1 := hr.1 a j
    have hr2 := hr.2.1 a j
    have hin := attraction_in (h1 a j) (h2 a j) hbest (mul_nonneg g1 hr1.1) (mul_nonneg g2 hr2.1)
      (by nlinarith [hr1.1, hr1.2, hr2.1, hr2.2] : c1 * r.r1 a j + c2 * r.r2 a j ≤ 1)
    have hcl := clampOpt_shortens hcfg.clamp (tempVelocity c1 c2 0 r.r1 r.r2
      { s.swarm with options := cfg.options }) a j
    have htv : tempVelocity c1 c2 0 r.r1 r.r2 { s.swarm with options := cfg.options } a j =
        c1 * r.r1 a j * (s.swarm.pbestPos a j - s.swarm.position a j) +
        c2 * r.r2 a j * (s.swarm.bestPos.row s.swarm.position a j - s.swarm.position a j) := by
      simp [tempVelocity]
    rw [← htv] at hin
    have hx := h1 a j
    rcases le_total 0 (tempVelocity c1 c2 0 r.r1 r.r2 { s.swarm with options := cfg.options } a j)
      with h0 | h0
    · have := hcl.1 h0
      constructor <;> linarith [hin.1, hin.2, this.1, this.2, hx.1, hx.2]
    · have := hcl.2 h0
      constructor <;> linarith [hin.1, hin.2, this.1, this.2, hx.1, hx.2]

theorem hull_iterate {cfg : Config n d K} (hcfg : NoInertia cfg) {b : Bounds d K} {r : Draw n d K}
    (hr : r.Legal) (ev : Mat n d K → Except Err (Costs n K)) (iters i : Nat) (q : List Bool)
    (s : Opt n d K) (hs : HullInv b s) : HullInv b (iterate cfg ev r iters i q s).1 := by
  have heval : ∀ c, HullInv b (recordEval c s) := by
    intro c
    obtain ⟨⟨h1, h2, h3, h4⟩, h5⟩ := hs
    refine ⟨⟨h1, fun i j => ?_, ?_, h4⟩, h5⟩
    · rcases recordEval_pbestPos_or c s i with h | h
      · rw [h]; exact h2 i j
      · rw [h]; exact h1 i j
    · intro e he
      simp only [recordEval, List.mem_append, List.mem_singleton] at he
      rcases he with he | rfl
      · exact h3 e he
      · exact h1
  have hbest : ∀ c t g, callGbest cfg r.oracle (recordEval c s).top (recordEval c s).swarm = (t, .ok g) →
      HullInv b (recordBest t g (recordEval c s)) := by
    intro c t g hg
    obtain ⟨⟨h1, h2, h3, h4⟩, h5⟩ := heval c
    refine ⟨⟨h1, h2, h3, ?_⟩, bestInBox_from h2 h5 (callGbest_from hg)⟩
    intro x hx
    simp only [recordBest, Opt.populateHistory, List.mem_append, List.mem_singleton] at hx
    rcases hx with hx | rfl
    · exact h4 x hx
    · exact h1
  have hcs := iterate_cases cfg ev r iters i q s
  generalize (iterate cfg ev r iters i q s).1 = s' at hcs ⊢
  generalize (iterate cfg ev r iters i q s).2 = o at hcs
  cases hcs with
  | evalError e h => exact hs
  | gbestError c t e h hg =>
    obtain ⟨⟨h1, h2, h3, h4⟩, h5⟩ := heval c
    exact ⟨⟨h1, h2, h3, h4⟩, h5⟩
  | stop c t g h hg hi hq => exact hbest c t g hg
  | moveError c t g _ e h hg hns hm =>
    have := hull_move hcfg hr iters i _ (hbest c t g hg); rw [hm] at this; exact this
  | moved c t g _ h hg hns hm =>
    have := hull_move hcfg hr iters i _ (hbest c t g hg); rw [hm] at this; exact this

/-- C65: with inertia `w = 0` and `c1, c2 >= 0`, `c1 + c2 <= 1` (no bounds, any clamp around 0), no
particle is ever evaluated outside a box that contains the initial swarm – for every topology,
objective and sequence of `optimize` calls, whatever the initial velocities are. -/
theorem C65_hull (cfg : Config n d K) (hcfg : NoInertia cfg) (s : Opt n d K) (hf : Fresh cfg s)
    (b : Bounds d K) (hin : InBox b s.swarm.position) (ops : List (Op n d K))
    (hops : ∀ op ∈ ops, op.Legal ∧ op.isOptimize) :
    let s' := runOps cfg s ops
    InBox b s'.swarm.position ∧ InBox b s'.swarm.pbestPos ∧ (∀ e ∈ s'.evals, InBox b e.1) ∧
      ∀ x ∈ s'.posHistory, InBox b x := by
  obtain ⟨r, sw, t, a, b', p, hsw, rfl⟩ := fresh_cases cfg s hf
  have hpb := (fresh_reachable_init cfg r sw hsw).2.2.2.1
  have hbp : sw.bestPos = .empty := by
    unfold resetSwarm createSwarm at hsw
    dsimp only at hsw
    split at hsw
    · cases hsw
    · cases hsw; rfl
  have := runOps_inv cfg (HullInv b) (fun op => op.Legal ∧ op.isOptimize) (fun s op hop hs => by
    cases op with
    | optimize ev iters nproc env =>
      refine optimize_inv2 cfg ev iters nproc env (HullInv b) (HullInv b) ?_ ?_ ?_ ?_ s hs
      · rintro s ⟨⟨h1, h2, h3, h4⟩, h5⟩; exact ⟨⟨h1, h2, h3, h4⟩, h5⟩
      · intro i q s h; exact hull_iterate hcfg (hop.1 i) (ev i) iters i q s h
      · rintro s x ⟨⟨h1, h2, h3, h4⟩, h5⟩; exact ⟨⟨h1, h2, h3, h4⟩, h5⟩
      · rintro s x y ⟨⟨h1, h2, h3, h4⟩, h5⟩; exact ⟨⟨h1, h2, h3, h4⟩, h5⟩
    | reset r => exact hop.2.elim) ops hops
    { swarm := sw, top := t, bhMem := a, vhMem := b', openPools := p }
    ⟨⟨hin, by rw [hpb]; exact hin, by simp, by simp⟩, by simp only [hbp]; trivial⟩
  exact ⟨this.1.position, this.1.pbest, this.1.evals, this.1.history⟩

namespace Ex

/-- `w = 0`, `c1 = 1/2`, `c2 = 1/3`. -/
def stillCfg : Config 2 1 ℚ :=
  { gcfg 2 1 with options := [("c1", 1 / 2), ("c2", 1 / 3), ("w", 0)] }

end Ex

/-- The hypotheses hold of a concrete configuration … -/
example : NoInertia Ex.stillCfg :=
  ⟨by simp [Ex.stillCfg, Ex.gcfg], rfl, by simp [Ex.stillCfg, Ex.gcfg], rfl, rfl, rfl,
    1 / 2, 1 / 3, rfl, rfl, by norm_num, by norm_num, by norm_num⟩

/-- … whose swarm starts in `[0, 1]`, moves and stays there. -/
example : (match construct Ex.stillCfg (Ex.init 2 1) (Ex.init 2 1) with
    | .ok s => decide (((runOps Ex.stillCfg s
        [.optimize (Ex.sphere 2 1) 3 none fun _ => Ex.draw 2 1]).evals.map fun e => e.1 1 0) =
          [1, 5 / 6, 25 / 36])
    | _ => false) = true := by decide +kernel

/-- C65 needs `w = 0`: with inertia the same swarm leaves the box. -/
theorem C65_inertia_leaves : (match construct (Ex.gcfg 2 1) (Ex.init 2 1) (Ex.init 2 1) with
    | .ok s => decide (∀ i j, 0 ≤ s.swarm.position i j ∧ s.swarm.position i j ≤ 1) &&
        decide (¬ ∀ e ∈ (runOps (Ex.gcfg 2 1) s
        [.optimize (Ex.sphere 2 1) 3 none fun _ => Ex.draw 2 1]).evals, ∀ i j,
          0 ≤ e.1 i j ∧ e.1 i j ≤ 1)
    | _ => false) = true := by decide +kernel

end PySwarms
