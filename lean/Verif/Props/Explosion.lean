import Verif.Lemmas.Stability
import Verif.Lemmas.Rest
import Verif.Props.Hull
import Verif.Examples

/-!
# When the swarm can and cannot explode (C84)
-/

set_option linter.unusedSectionVars false

namespace PySwarms

variable {n d : Nat} {K : Type} [Field K] [LinearOrder K] [IsStrictOrderedRing K] [Transc K]
  [FloorRing K]

/-! ### Specification -/

/-- A continuous optimizer without bounds, clamp and time-varying options, with the given options. -/
structure PlainRun (cfg : Config n d K) (c1 c2 w : K) : Prop where
  kind : cfg.kind ≠ .binary
  bounds : cfg.bounds = none
  clamp : cfg.clamp = none
  vh : cfg.vhStrategy = "unmodified"
  oh : cfg.ohStrategy = []
  c1 : cfg.options.lookup "c1" = some c1
  c2 : cfg.options.lookup "c2" = some c2
  w : cfg.options.lookup "w" = some w

/-- Every point that is not strictly worse than the starting point of some particle has all its
coordinates in `[lo, hi]` (the level sets of the starting points are bounded). -/
def LevelsIn (f : Vec d K → XR K) (x0 : Mat n d K) (lo hi : K) : Prop :=
  ∀ i x, XR.lt (f (x0 i)) (f x) = false → ∀ j, lo ≤ x j ∧ x j ≤ hi

/-! ### The invariant -/

/-- Loop invariant of the confined run. -/
structure ConfInv (w lo hi M R : K) (f : Vec d K → XR K) (x0 : Mat n d K) (s : Opt n d K) : Prop where
  energy : ∀ i j, energy w (s.swarm.position i j - (lo + hi) / 2) (s.swarm.velocity i j) ≤ M
  best : BestInBox (fun _ => lo, fun _ => hi) s.swarm.bestPos
  pb : InBox (fun _ => lo, fun _ => hi) s.swarm.pbestPos
  level : (s.swarm.position = x0 ∧ s.swarm.pbestCost = fun _ => XR.pinf) ∨
    ∀ i x, XR.lt (f x) (s.swarm.pbestCost i) = true → ∀ j, lo ≤ x j ∧ x j ≤ hi
  evals : ∀ e ∈ s.evals, ∀ i j, |e.1 i j| ≤ R
  history : ∀ x ∈ s.posHistory, ∀ i j, |x i j| ≤ R

/-- Two attractions to points of `[lo, hi]` are one attraction to a point of `[lo, hi]`. -/
theorem one_attractor {lo hi a1 a2 p g x : K} (h1 : 0 ≤ a1) (h2 : 0 ≤ a2) (hp : lo ≤ p ∧ p ≤ hi)
    (hg : lo ≤ g ∧ g ≤ hi) : ∃ e, |e| ≤ (hi - lo) / 2 ∧
      a1 * (p - x) + a2 * (g - x) = -((a1 + a2) * ((x - (lo + hi) / 2) - e)) := by
  rcases (add_nonneg h1 h2).eq_or_lt with h | h
  · have e1 : a1 = 0 := by linarith
    have e2 : a2 = 0 := by linarith
    refine ⟨0, ?_, by rw [e1, e2]; ring⟩
    rw [abs_zero]
    linarith [hp.1, hp.2]
  · refine ⟨(a1 * (p - (lo + hi) / 2) + a2 * (g - (lo + hi) / 2)) / (a1 + a2), ?_, ?_⟩
    · rw [abs_le]
      constructor
      · rw [le_div_iff₀ h]
        nlinarith [mul_nonneg h1 (sub_nonneg.2 hp.1), mul_nonneg h2 (sub_nonneg.2 hg.1)]
      · rw [div_le_iff₀ h]
        nlinarith [mul_nonneg h1 (sub_nonneg.2 hp.2), mul_nonneg h2 (sub_nonneg.2 hg.2)]
    · rw [mul_sub (a1 + a2), mul_div_cancel₀ _ h.ne']
      ring

section
variable {cfg : Config n d K} {c1 c2 w lo hi M R : K} {f : Vec d K → XR K} {x0 : Mat n d K}

theorem conf_move (hcfg : PlainRun cfg c1 c2 w) (h1 : 0 ≤ c1) (h2 : 0 ≤ c2)
    (hM : ∀ y v φ e, 0 ≤ φ → φ ≤ c1 + c2 → |e| ≤ (hi - lo) / 2 → energy w y v ≤ M →
      energy w (y + (w * v - φ * (y - e))) (w * v - φ * (y - e)) ≤ M)
    {r : Draw n d K} (hr : r.Legal) (iters i : Nat) (s : Opt n d K)
    (hs : ConfInv w lo hi M R f x0 s)
    (hl : ∀ i x, XR.lt (f x) (s.swarm.pbestCost i) = true → ∀ j, lo ≤ x j ∧ x j ≤ hi) :
    ConfInv w lo hi M R f x0 (moveSwarm cfg r iters i s).1 := by
  have hcs := moveSwarm_cases cfg r iters i s
  generalize (moveSwarm cfg r iters i s).1 = s' at hcs ⊢
  generalize (moveSwarm cfg r iters i s).2 = o at hcs
  cases hcs with
  | optError e h => exact hs
  | velError o vm e h hv => exact ⟨hs.1, hs.2, hs.3, hs.4, hs.5, hs.6⟩
  | posError o vm v bm e h hv hp =>
    have hno : False := by
      unfold callPosition computePosition at hp
      rw [hcfg.bounds] at hp
      have hk := hcfg.kind
      cases hkk : cfg.kind <;> rw [hkk] at hp hk <;> first
        | exact absurd rfl hk
        | (simp at hp)
    exact hno.elim
  | ok o vm v bm p h hv hp =>
    have ho : o = cfg.options := by
      unfold callOptions ohCall at h
      rw [hcfg.oh] at h
      have hk := hcfg.kind
      cases hkk : cfg.kind <;> rw [hkk] at h hk <;> first
        | exact absurd rfl hk
        | (simp at h; exact h.symm)
    subst ho
    have hp' : p = fun i j => s.swarm.position i j + v i j := by
      unfold callPosition computePosition at hp
      rw [hcfg.bounds] at hp
      have hk := hcfg.kind
      cases hkk : cfg.kind <;> rw [hkk] at hp hk <;> first
        | exact absurd rfl hk
        | (simp only [Prod.mk.injEq, Except.ok.injEq] at hp; exact hp.2.symm)
    obtain ⟨c1', c2', w', e1, e2, e3, hvh⟩ := computeVelocity_ok hv
    simp only at e1 e2 e3
    rw [hcfg.c1] at e1
    rw [hcfg.c2] at e2
    rw [hcfg.w] at e3
    cases e1
    cases e2
    cases e3
    rw [hcfg.vh, vhCall, if_pos rfl, vhUnmodified, hcfg.clamp] at hvh
    have hv' : v = tempVelocity c1 c2 w r.r1 r.r2 { s.swarm with options := cfg.options } := by
      have := congrArg Prod.snd hvh
      simp only [Except.ok.injEq] at this
      exact this.symm
    refine ⟨?_, hs.2, hs.3, Or.inr hl, hs.5, hs.6⟩
    intro a j
    have hr1 := hr.1 a j
    have hr2 := hr.2.1 a j
    -- one attractor for both terms
    have hatt : ∃ φ e, 0 ≤ φ ∧ φ ≤ c1 + c2 ∧ |e| ≤ (hi - lo) / 2 ∧
        v a j = w * s.swarm.velocity a j - φ * ((s.swarm.position a j - (lo + hi) / 2) - e) := by
      have hpj := hs.pb a j
      dsimp only at hpj
      have k1 : 0 ≤ c1 * r.r1 a j := mul_nonneg h1 hr1.1
      have k2 : 0 ≤ c2 * r.r2 a j := mul_nonneg h2 hr2.1
      have l1 : c1 * r.r1 a j ≤ c1 := by nlinarith [hr1.2]
      have l2 : c2 * r.r2 a j ≤ c2 := by nlinarith [hr2.2]
      cases hbp : s.swarm.bestPos with
      | empty =>
        obtain ⟨e, he, heq⟩ := one_attractor (x := s.swarm.position a j) k1 le_rfl hpj hpj
        refine ⟨_, e, add_nonneg k1 le_rfl, by linarith, he, ?_⟩
        rw [hv']
        simp only [tempVelocity, hbp, BestPos.row]
        linarith
      | single g =>
        have hb := hs.best
        rw [hbp] at hb
        obtain ⟨e, he, heq⟩ := one_attractor (x := s.swarm.position a j) k1 k2 hpj (hb j)
        refine ⟨_, e, add_nonneg k1 k2, by linarith, he, ?_⟩
        rw [hv']
        simp only [tempVelocity, hbp, BestPos.row]
        linarith
      | perParticle m =>
        have hb := hs.best
        rw [hbp] at hb
        obtain ⟨e, he, heq⟩ := one_attractor (x := s.swarm.position a j) k1 k2 hpj (hb a j)
        refine ⟨_, e, add_nonneg k1 k2, by linarith, he, ?_⟩
        rw [hv']
        simp only [tempVelocity, hbp, BestPos.row]
        linarith
    obtain ⟨φ, e, f1, f2, f3, f4⟩ := hatt
    have := hM _ _ φ e f1 f2 f3 (hs.energy a j)
    rw [← f4] at this
    simp only [hp']
    rw [show s.swarm.position a j + v a j - (lo + hi) / 2 =
      s.swarm.position a j - (lo + hi) / 2 + v a j by ring]
    exact this

theorem conf_iterate (hcfg : PlainRun cfg c1 c2 w) (h1 : 0 ≤ c1) (h2 : 0 ≤ c2)
    (hM : ∀ y v φ e, 0 ≤ φ → φ ≤ c1 + c2 → |e| ≤ (hi - lo) / 2 → energy w y v ≤ M →
      energy w (y + (w * v - φ * (y - e))) (w * v - φ * (y - e)) ≤ M)
    (hR : ∀ y v, energy w (y - (lo + hi) / 2) v ≤ M → |y| ≤ R)
    (hlev : LevelsIn f x0 lo hi)
    {r : Draw n d K} (hr : r.Legal) (ev : Mat n d K → Except Err (Costs n K))
    (hev : ∀ x c, ev x = .ok c → c = fun i => f (x i)) (iters i : Nat) (q : List Bool)
    (s : Opt n d K) (hs : ConfInv w lo hi M R f x0 s) :
    ConfInv w lo hi M R f x0 (iterate cfg ev r iters i q s).1 := by
  have heval : ∀ c, ev s.swarm.position = .ok c → ConfInv w lo hi M R f x0 (recordEval c s) ∧
      ∀ i x, XR.lt (f x) ((recordEval c s).swarm.pbestCost i) = true → ∀ j, lo ≤ x j ∧ x j ≤ hi := by
    intro c hc
    have hcf := hev _ _ hc
    have hl : ∀ i x, XR.lt (f x) ((recordEval c s).swarm.pbestCost i) = true →
        ∀ j, lo ≤ x j ∧ x j ≤ hi := by
      intro i x hx
      simp only [recordEval, computePbest] at hx
      rcases hs.level with ⟨hp, hpc⟩ | h
      · -- the first evaluation
        apply hlev i x
        rw [hpc, hcf, hp] at hx
        simp only at hx
        split at hx
        · next hnb =>
          -- the start is not below infinity
          cases hf0 : f (x0 i) with
          | fin a => rw [hf0] at hnb; simp [XR.lt] at hnb
          | ninf => rw [hf0] at hnb; simp [XR.lt] at hnb
          | pinf => exact XR.not_pinf_lt _
          | nan => cases f x <;> rfl
        · exact XR.lt_asymm hx
      · split at hx
        · exact h i x hx
        · next hnb =>
          simp only [Bool.not_eq_true', Bool.not_eq_false] at hnb
          exact h i x (XR.lt_trans hx hnb)
    refine ⟨⟨hs.1, hs.2, ?_, Or.inr hl, ?_, hs.6⟩, hl⟩
    · intro i j
      by_cases hb : XR.lt (c i) (s.swarm.pbestCost i) = true
      · have e : (recordEval c s).swarm.pbestPos i = s.swarm.position i := by
          funext j; simp [recordEval, computePbest, hb]
        rw [e]
        rcases hs.level with ⟨hp, -⟩ | h
        · rw [hp]
          exact hlev i (x0 i) (XR.lt_irrefl _) j
        · rw [hcf] at hb
          exact h i _ hb j
      · have e : (recordEval c s).swarm.pbestPos i = s.swarm.pbestPos i := by
          funext j; simp [recordEval, computePbest, hb]
        rw [e]
        exact hs.pb i j
    · intro e he
      simp only [recordEval, List.mem_append, List.mem_singleton] at he
      rcases he with he | rfl
      · exact hs.evals e he
      · exact fun i j => hR _ _ (hs.energy i j)
  have hbest : ∀ c t g, ev s.swarm.position = .ok c →
      callGbest cfg r.oracle (recordEval c s).top (recordEval c s).swarm = (t, .ok g) →
      ConfInv w lo hi M R f x0 (recordBest t g (recordEval c s)) := by
    intro c t g hc hg
    obtain ⟨h, -⟩ := heval c hc
    refine ⟨h.1, bestInBox_from h.3 h.2 (callGbest_from hg), h.3, h.4, h.5, ?_⟩
    intro x hx
    simp only [recordBest, Opt.populateHistory, List.mem_append, List.mem_singleton] at hx
    rcases hx with hx | rfl
    · exact h.6 x hx
    · exact fun i j => hR _ _ (h.1 i j)
  have hcs := iterate_cases cfg ev r iters i q s
  generalize (iterate cfg ev r iters i q s).1 = s' at hcs ⊢
  generalize (iterate cfg ev r iters i q s).2 = o at hcs
  cases hcs with
  | evalError e h => exact hs
  | gbestError c t e h hg =>
    obtain ⟨h, -⟩ := heval c h
    exact ⟨h.1, h.2, h.3, h.4, h.5, h.6⟩
  | stop c t g h hg hi hq => exact hbest c t g h hg
  | moveError c t g _ e h hg hns hm =>
    have := conf_move hcfg h1 h2 hM hr iters i _ (hbest c t g h hg) (heval c h).2
    rw [hm] at this; exact this
  | moved c t g _ h hg hns hm =>
    have := conf_move hcfg h1 h2 hM hr iters i _ (hbest c t g h hg) (heval c h).2
    rw [hm] at this; exact this

end

/-- **C84.**  With moderate coefficients the swarm cannot explode.  If `0 ≤ w < 1`, `c1, c2 ≥ 0` and
`(c1 + c2) (1 + w) < 2 (1 - w)²`, there is a radius `R`, depending only on `c1`, `c2`, `w`, the interval
`[lo, hi]` and the size `V` of the initial velocities, such that no unbounded, unclamped run ever
evaluates a position with a coordinate beyond `R`: whatever the number of particles and dimensions,
the topology, the objective (whose starting level sets lie in `[lo, hi]`), the random numbers and the
number of iterations. -/
theorem C84_confined (c1 c2 w lo hi V : K) (hw0 : 0 ≤ w) (hw1 : w < 1) (h1 : 0 ≤ c1) (h2 : 0 ≤ c2)
    (hlh : lo ≤ hi) (hst : (c1 + c2) * (1 + w) < 2 * (1 - w) ^ 2) :
    ∃ R, ∀ (n d : Nat) (cfg : Config n d K), PlainRun cfg c1 c2 w → ∀ s : Opt n d K, Fresh cfg s →
      (∀ i j, |s.swarm.velocity i j| ≤ V) → ∀ f : Vec d K → XR K,
      LevelsIn f s.swarm.position lo hi → ∀ ev : Nat → Mat n d K → Except Err (Costs n K),
      (∀ k x c, ev k x = .ok c → c = fun i => f (x i)) → ∀ iters nproc env,
      (∀ k, (env k).Legal) →
      let s' := (optimize cfg ev iters nproc env s).1
      (∀ e ∈ s'.evals, ∀ i j, |e.1 i j| ≤ R) ∧ (∀ x ∈ s'.posHistory, ∀ i j, |x i j| ≤ R) ∧
        ∀ i j, |s'.swarm.position i j| ≤ R := by
  obtain ⟨M1, hM1⟩ := energy_bounded (E := (hi - lo) / 2) hw0 hw1 (add_nonneg h1 h2)
    (by linarith) hst
  obtain ⟨M, hMdef⟩ : ∃ M, M = max M1 (((hi - lo) / 2 + |V|) ^ 2 + |V| ^ 2) := ⟨_, rfl⟩
  refine ⟨2 * (1 + M) / (1 - w) + |(lo + hi) / 2|, ?_⟩
  intro n d cfg hcfg s hfr hvel f hlev ev hev iters nproc env henv
  have hM : ∀ y v φ e, 0 ≤ φ → φ ≤ c1 + c2 → |e| ≤ (hi - lo) / 2 → energy w y v ≤ M →
      energy w (y + (w * v - φ * (y - e))) (w * v - φ * (y - e)) ≤ M := by
    intro y v φ e g1 g2 g3 g4
    refine (hM1 y v φ e g1 g2 g3).trans (max_le g4 ?_)
    rw [hMdef]
    exact le_max_left _ _
  have hR : ∀ y v, energy w (y - (lo + hi) / 2) v ≤ M →
      |y| ≤ 2 * (1 + M) / (1 - w) + |(lo + hi) / 2| := by
    intro y v h
    have e : y = (y - (lo + hi) / 2) + (lo + hi) / 2 := by ring
    calc |y| = |(y - (lo + hi) / 2) + (lo + hi) / 2| := by rw [← e]
      _ ≤ _ := (abs_add_le _ _).trans (add_le_add_left (abs_le_of_energy hw0 hw1 h) _)
  obtain ⟨r, sw, t, a, b, p, hsw, rfl⟩ := fresh_cases cfg s hfr
  obtain ⟨i1, i2, i3, i4, i5⟩ := fresh_reachable_init cfg r sw hsw
  have hx0 : ∀ i j, lo ≤ sw.position i j ∧ sw.position i j ≤ hi := fun i =>
    hlev i _ (XR.lt_irrefl _)
  have hstart : ∀ S : Opt n d K, S.swarm = sw → S.evals = [] → S.posHistory = [] →
      ConfInv w lo hi M (2 * (1 + M) / (1 - w) + |(lo + hi) / 2|) f sw.position S := by
    rintro S rfl g2 g3
    refine ⟨fun i j => ?_, by rw [i3]; trivial, by rw [i4]; exact hx0, Or.inl ⟨rfl, i1⟩,
      by rw [g2]; simp, by rw [g3]; simp⟩
    have hy : |S.swarm.position i j - (lo + hi) / 2| ≤ (hi - lo) / 2 := by
      rw [abs_le]
      constructor <;> linarith [(hx0 i j).1, (hx0 i j).2]
    refine (energy_le hw0 hw1 hy ((hvel i j).trans (le_abs_self V))).trans ?_
    rw [hMdef]
    exact le_max_right _ _
  have hsw' : { sw with pbestCost := fun _ => XR.pinf } = sw := by rw [← i1]
  have hl := loop_inv cfg ev env iters _ (fun i q s h => conf_iterate hcfg h1 h2 hM hR hlev (henv i)
    (ev i) (hev i) iters i q s h) iters 0 []
    (startState cfg nproc { swarm := sw, top := t, bhMem := a, vhMem := b, openPools := p })
    (hstart _ hsw' rfl rfl)
  have hc := optimize_cases cfg ev iters nproc env
    { swarm := sw, top := t, bhMem := a, vhMem := b, openPools := p }
  have key : ConfInv w lo hi M (2 * (1 + M) / (1 - w) + |(lo + hi) / 2|) f sw.position
      (optimize cfg ev iters nproc env
        { swarm := sw, top := t, bhMem := a, vhMem := b, openPools := p }).1 := by
    generalize (optimize cfg ev iters nproc env
      { swarm := sw, top := t, bhMem := a, vhMem := b, openPools := p }).1 = s' at hc ⊢
    generalize (optimize cfg ev iters nproc env
      { swarm := sw, top := t, bhMem := a, vhMem := b, openPools := p }).2 = o at hc
    cases hc with
    | badPool h => exact hstart _ rfl rfl rfl
    | loopError s1 e hp h => rw [h] at hl; exact ⟨hl.1, hl.2, hl.3, hl.4, hl.5, hl.6⟩
    | finishError s1 e hp h hf => rw [h] at hl; exact ⟨hl.1, hl.2, hl.3, hl.4, hl.5, hl.6⟩
    | done r hp s1 h hf => rw [h] at hl; exact ⟨hl.1, hl.2, hl.3, hl.4, hl.5, hl.6⟩
  exact ⟨key.evals, key.history, fun i j => hR _ _ (key.energy i j)⟩

/-- Non-vacuity of C84: `c1 = 1/2`, `c2 = 1/3`, `w = 1/4` are moderate, and two particles that start at
0 and 1 with velocities 1/2 have their level sets for the sphere function in `[-1, 1]`. -/
def Ex.calmCfg : Config 2 1 ℚ :=
  { Ex.gcfg 2 1 with options := [("c1", 1 / 2), ("c2", 1 / 3), ("w", 1 / 4)] }

example : PlainRun Ex.calmCfg (1 / 2) (1 / 3) (1 / 4) ∧
    ((1 / 2 : ℚ) + 1 / 3) * (1 + 1 / 4) < 2 * (1 - 1 / 4) ^ 2 :=
  ⟨⟨by simp [Ex.calmCfg, Ex.gcfg], rfl, rfl, rfl, rfl, rfl, rfl, rfl⟩, by norm_num⟩

example : LevelsIn (fun x : Vec 1 ℚ => .fin (x 0 * x 0)) (fun (i : Fin 2) _ => (i.val : ℚ)) (-1) 1 := by
  intro i x h j
  have hj : j = 0 := Subsingleton.elim _ _
  subst hj
  simp only [XR.lt, decide_eq_false_iff_not, not_lt] at h
  have hi : (i.val : ℚ) * i.val ≤ 1 := by
    have : i = 0 ∨ i = 1 := by omega
    rcases this with rfl | rfl <;> norm_num
  constructor <;> nlinarith

/-! ### Coefficients that are not moderate -/

/-- The documented options `{'c1': 0.5, 'c2': 0.3, 'w': 0.9}`; one particle starts at 0. -/
def Ex.docCfg : Config 1 1 ℚ :=
  { Ex.gcfg 1 1 with
    options := [("c1", 1 / 2), ("c2", 3 / 10), ("w", 9 / 10)], initPos := some fun _ _ => 0 }

/-- Unlucky random numbers: in a cycle of six iterations, large coefficients twice, then none. -/
def Ex.unlucky (t : Nat) : Draw 1 1 ℚ :=
  { Ex.draw 1 1 with
    r1 := fun _ _ => if 3 ≤ t ∧ (t - 3) % 6 < 2 then 15 / 16 else 0
    r2 := fun _ _ => if 3 ≤ t ∧ (t - 3) % 6 < 2 then 15 / 16 else 0 }

theorem unlucky_legal (t : Nat) : (Ex.unlucky t).Legal := by
  obtain ⟨-, -, h3, h4, h5⟩ := Ex.draw_legal 1 1
  refine ⟨fun _ _ => ?_, fun _ _ => ?_, h3, h4, h5⟩ <;>
  · unfold Ex.unlucky Unit01
    dsimp only
    split <;> norm_num

/-- The path of the unlucky particle. -/
def Ex.unluckyPath (t : Nat) : Mat 1 1 ℚ × Mat 1 1 ℚ :=
  restPath (1 / 2) (3 / 10) (9 / 10) (fun _ _ => 0) (fun _ _ => 1 / 2) (fun _ => 0) Ex.unlucky t

theorem unluckyPath_step (t : Nat) (φ : ℚ) (hφ : (Ex.unlucky t).r1 0 0 = φ ∧ (Ex.unlucky t).r2 0 0 = φ) :
    (Ex.unluckyPath (t + 1)).2 0 0 = 9 / 10 * (Ex.unluckyPath t).2 0 0
        - 4 / 5 * φ * (Ex.unluckyPath t).1 0 0 ∧
      (Ex.unluckyPath (t + 1)).1 0 0 = (Ex.unluckyPath t).1 0 0 + (Ex.unluckyPath (t + 1)).2 0 0 := by
  unfold Ex.unluckyPath
  simp only [restPath]
  rw [hφ.1, hφ.2]
  exact ⟨by ring, trivial⟩

theorem unlucky_at (k r : Nat) (hr : r < 6) :
    (Ex.unlucky (3 + 6 * k + r)).r1 0 0 = (if r < 2 then 15 / 16 else 0) ∧
      (Ex.unlucky (3 + 6 * k + r)).r2 0 0 = if r < 2 then 15 / 16 else 0 := by
  have e : (3 + 6 * k + r - 3) % 6 = r := by omega
  have e' : 3 ≤ 3 + 6 * k + r := by omega
  simp only [Ex.unlucky, e, e', true_and, and_self]

/-- Each cycle at least doubles the distance. -/
theorem unlucky_cycle (k : Nat) :
    |(Ex.unluckyPath (3 + 6 * k)).2 0 0| ≤ |(Ex.unluckyPath (3 + 6 * k)).1 0 0| / 2 ∧
      2 ^ k ≤ |(Ex.unluckyPath (3 + 6 * k)).1 0 0| := by
  induction k with
  | zero =>
    have h : (Ex.unluckyPath 3).1 0 0 = 2439 / 2000 ∧ (Ex.unluckyPath 3).2 0 0 = 729 / 2000 := by
      decide +kernel
    rw [Nat.mul_zero, Nat.add_zero, h.1, h.2]
    constructor
    · rw [abs_of_nonneg (by norm_num), abs_of_nonneg (by norm_num)]; norm_num
    · rw [abs_of_nonneg (by norm_num)]; norm_num
  | succ k ih =>
    have s0 := unluckyPath_step _ _ (unlucky_at k 0 (by omega))
    have s1 := unluckyPath_step _ _ (unlucky_at k 1 (by omega))
    have s2 := unluckyPath_step _ _ (unlucky_at k 2 (by omega))
    have s3 := unluckyPath_step _ _ (unlucky_at k 3 (by omega))
    have s4 := unluckyPath_step _ _ (unlucky_at k 4 (by omega))
    have s5 := unluckyPath_step _ _ (unlucky_at k 5 (by omega))
    norm_num at s0 s1 s2 s3 s4 s5
    rw [show 3 + 6 * (k + 1) = 3 + 6 * k + 5 + 1 by omega]
    rw [show 3 + 6 * k + 1 + 1 = 3 + 6 * k + 2 by omega] at s1
    rw [show 3 + 6 * k + 2 + 1 = 3 + 6 * k + 3 by omega] at s2
    rw [show 3 + 6 * k + 3 + 1 = 3 + 6 * k + 4 by omega] at s3
    rw [show 3 + 6 * k + 4 + 1 = 3 + 6 * k + 5 by omega] at s4
    generalize (Ex.unluckyPath (3 + 6 * k)).1 0 0 = y at *
    generalize (Ex.unluckyPath (3 + 6 * k)).2 0 0 = v at *
    have hy : (Ex.unluckyPath (3 + 6 * k + 5 + 1)).1 0 0 =
        -(2625619 / 800000) * y + 2905677 / 2000000 * v := by linarith
    have hv : (Ex.unluckyPath (3 + 6 * k + 5 + 1)).2 0 0 =
        -(452709 / 800000) * y + 177147 / 2000000 * v := by linarith
    rw [hy, hv, pow_succ]
    obtain ⟨h1, h2⟩ := ih
    have h3 := abs_le.1 h1
    rcases le_total 0 y with h | h
    · rw [abs_of_nonneg h] at h2 h3
      have e : |-(2625619 / 800000) * y + 2905677 / 2000000 * v| =
          2625619 / 800000 * y - 2905677 / 2000000 * v := by
        rw [abs_of_nonpos (by linarith [h3.2])]; ring
      rw [e, abs_le]
      refine ⟨⟨?_, ?_⟩, ?_⟩ <;> linarith [h3.1, h3.2]
    · rw [abs_of_nonpos h] at h2 h3
      have e : |-(2625619 / 800000) * y + 2905677 / 2000000 * v| =
          -(2625619 / 800000) * y + 2905677 / 2000000 * v := by
        rw [abs_of_nonneg (by linarith [h3.1])]
      rw [e, abs_le]
      refine ⟨⟨?_, ?_⟩, ?_⟩ <;> linarith [h3.1, h3.2]

/-- **C84 (limits).**  The options of the documentation are not moderate: with `c1 = 0.5`, `c2 = 0.3`,
`w = 0.9` there are random numbers in `[0, 1)` for which GlobalBestPSO with one particle, minimising
`x²` from its minimiser 0 with initial velocity 1/2, evaluates positions beyond every bound, although
nothing it finds is ever better than its starting point. -/
theorem C84_documented_options_can_explode :
    ∃ (cfg : Config 1 1 ℚ) (s : Opt 1 1 ℚ) (env : Nat → Draw 1 1 ℚ),
      cfg.kind = .globalBest ∧ PlainRun cfg (1 / 2) (3 / 10) (9 / 10) ∧
      (∃ r1 r2, r1.Legal ∧ r2.Legal ∧ construct cfg r1 r2 = .ok s) ∧ (∀ t, (env t).Legal) ∧
      ∀ R, ∃ iters, ∃ x ∈ (optimize cfg (fun _ x => .ok fun i => .fin (x i 0 * x i 0)) iters none env
        s).1.posHistory, R < |x 0 0| := by
  have hL : (Ex.init 1 1).Legal := by
    refine ⟨fun i j => ?_, fun i j => ?_⟩ <;> unfold Unit01 Ex.init <;> dsimp only
    · have : i = 0 := Subsingleton.elim _ _
      subst this
      norm_num
    · norm_num
  obtain ⟨s, hs⟩ : ∃ s, construct Ex.docCfg (Ex.init 1 1) (Ex.init 1 1) = .ok s := ⟨_, rfl⟩
  have hpos : s.swarm.position = fun _ _ => 0 := by cases hs; rfl
  have hvel : s.swarm.velocity = fun _ _ => 1 / 2 := by
    cases hs
    funext i j
    show ((1 : ℚ) - 0) * (1 / 2) + 0 = 1 / 2
    norm_num
  refine ⟨Ex.docCfg, s, Ex.unlucky, rfl,
    ⟨by simp [Ex.docCfg, Ex.gcfg], rfl, rfl, rfl, rfl, rfl, rfl, rfl⟩,
    ⟨_, _, hL, hL, hs⟩, unlucky_legal, fun R => ?_⟩
  obtain ⟨k, hk⟩ : ∃ k : Nat, R < 2 ^ k := by
    obtain ⟨k, hk⟩ := exists_nat_gt R
    refine ⟨k, hk.trans ?_⟩
    exact_mod_cast Nat.lt_two_pow_self
  have hrest := rest_optimize (cfg := Ex.docCfg) (n := 1) (d := 1) (by omega) (by trivial) rfl rfl rfl rfl
    rfl (by decide) (c1 := 1 / 2) (c2 := 3 / 10) (w := 9 / 10) rfl rfl rfl s
    (Or.inl ⟨_, _, hs⟩) (f := fun x => x 0 * x 0) (c := 0) (fun i => by rw [hpos]; simp)
    (fun y => mul_self_nonneg _) Ex.unlucky (3 + 6 * k + 1)
  refine ⟨3 + 6 * k + 1, (Ex.unluckyPath (3 + 6 * k)).1, ?_, hk.trans_le (unlucky_cycle k).2⟩
  rw [hrest, List.mem_map]
  refine ⟨3 + 6 * k, List.mem_range.2 (by omega), ?_⟩
  rw [hpos, hvel]
  rfl

end PySwarms
