import Verif.Props.Chance
import Verif.Props.Outcome
import Verif.Props.Moves
import Verif.Props.Local
import Mathlib.Analysis.SpecificLimits.Basic
import Mathlib.Topology.MetricSpace.Pseudo.Pi

/-!
# C119: restarting finds the optimum

`reset` followed by `optimize`, again and again, and the best of the returned costs.
-/

open MeasureTheory ProbabilityTheory

set_option linter.unusedSectionVars false
set_option linter.unusedVariables false

namespace PySwarms

variable {n d : ℕ} {Ω : Type*} [MeasurableSpace Ω] {P : Measure Ω}

/-! ## Specification -/

/-- The arguments and random numbers of one round `reset(); optimize(f, iters, n_processes)`. -/
structure Round (n d : ℕ) where
  init : InitDraw n d ℝ
  env : ℕ → Draw n d ℝ
  iters : ℕ
  nproc : Option ℕ

/-- One round on the optimizer `s`: the optimizer afterwards, and what `optimize` returned (or the
exception of the round). -/
noncomputable def Round.run (cfg : Config n d ℝ) (f : Vec d ℝ → ℝ) (r : Round n d) (s : Opt n d ℝ) :
    Opt n d ℝ × Except Err (XR ℝ × Vec d ℝ) :=
  match reset cfg r.init s with
  | (s', .error e) => (s', .error e)
  | (s', .ok ()) => optimize cfg (eachParticle f) r.iters r.nproc r.env s'

/-- The optimizer after `t` rounds. -/
noncomputable def afterRounds (cfg : Config n d ℝ) (f : Vec d ℝ → ℝ) (r : ℕ → Round n d)
    (s : Opt n d ℝ) : ℕ → Opt n d ℝ
  | 0 => s
  | t + 1 => ((r t).run cfg f (afterRounds cfg f r s t)).1

/-- What round `t` (counted from 0) returns. -/
noncomputable def roundResult (cfg : Config n d ℝ) (f : Vec d ℝ → ℝ) (r : ℕ → Round n d)
    (s : Opt n d ℝ) (t : ℕ) : Except Err (XR ℝ × Vec d ℝ) :=
  ((r t).run cfg f (afterRounds cfg f r s t)).2

/-- The round returned a cost that is at most `c`, with a position that has this cost. -/
def Succeeds (f : Vec d ℝ → ℝ) (c : ℝ) (res : Except Err (XR ℝ × Vec d ℝ)) : Prop :=
  ∃ y p, res = .ok (.fin y, p) ∧ f p = y ∧ y ≤ c

/-- The round returned a position whose cost is at most `c`. -/
def Finds (f : Vec d ℝ → ℝ) (c : ℝ) (res : Except Err (XR ℝ × Vec d ℝ)) : Prop :=
  ∃ v p, res = .ok (v, p) ∧ f p ≤ c

/-- The round raised an exception. -/
def Raises (res : Except Err (XR ℝ × Vec d ℝ)) : Prop := ∃ e, res = .error e

/-! ## Proofs -/

theorem round_first {cfg : Config n d ℝ} (f : Vec d ℝ → ℝ) (r : Round n d) {sw : Swarm n d ℝ}
    (hsw : resetSwarm cfg r.init = .ok sw) (s0 : Opt n d ℝ) (v : XR ℝ) (p : Vec d ℝ)
    (hv : (r.run cfg f s0).2 = .ok (v, p)) :
    ∃ s s', Fresh cfg s ∧ s.evals = [] ∧ s.swarm.position = sw.position ∧
      optimize cfg (eachParticle f) r.iters r.nproc r.env s = (s', .ok (v, p)) ∧
      (1 ≤ r.iters → (s.swarm.position, fun i => XR.fin (f (s.swarm.position i))) ∈ s'.evals) ∧
      (r.iters = 0 → s'.evals = []) := by
  unfold Round.run at hv
  rcases hrs : reset cfg r.init s0 with ⟨s, e | _⟩
  · rw [hrs] at hv; cases hv
  · rw [hrs] at hv
    dsimp only at hv
    have hs : s.swarm.position = sw.position ∧ s.evals = [] := by
      unfold reset at hrs
      rw [hsw] at hrs
      simp only [Prod.mk.injEq] at hrs
      rw [← hrs.1]
      exact ⟨rfl, rfl⟩
    have ho' : optimize cfg (eachParticle f) r.iters r.nproc r.env s =
        ((optimize cfg (eachParticle f) r.iters r.nproc r.env s).1, .ok (v, p)) := by
      rw [← hv]
    obtain ⟨s1, hl, hs1, -⟩ := optimize_ok cfg _ r.iters r.nproc r.env s _ v p ho'
    have hevs : (optimize cfg (eachParticle f) r.iters r.nproc r.env s).1.evals = s1.evals := by
      rw [hs1]
    refine ⟨s, _, Or.inr ⟨s0, r.init, hrs⟩, hs.2, hs.1, ho', fun h1 => ?_, fun h0 => ?_⟩
    · rw [hevs]
      obtain ⟨m, hit⟩ := Nat.exists_eq_add_of_le' h1
      rw [hit] at hl
      obtain ⟨E, hE⟩ := loop_first cfg (eachParticle f) r.env (m + 1) m 0 []
        (startState cfg r.nproc s) (fun i => XR.fin (f (s.swarm.position i))) rfl
      rw [hl] at hE
      simp only at hE
      rw [hE]
      exact List.mem_append_right _ (List.mem_cons_self ..)
    · rw [h0] at hl
      simp only [loop, Prod.mk.injEq] at hl
      rw [hevs, ← hl.1]; exact hs.2

theorem round_succeeds (hn : 0 < n) {cfg : Config n d ℝ} {b : Bounds d ℝ} (h : DrawsInside cfg b)
    (hk : cfg.kind.isStar) (box : Bounds d ℝ) (f : Vec d ℝ → ℝ) (c : ℝ)
    (hf : ∀ x, box.Contains x → f x ≤ c) (r : Round n d) (s0 : Opt n d ℝ) (i : Fin n)
    (hi : box.Contains fun j => b.1 j + (b.2 j - b.1 j) * r.init.pos i j)
    (v : XR ℝ) (p : Vec d ℝ) (hv : (r.run cfg f s0).2 = .ok (v, p)) :
    Succeeds f c (.ok (v, p)) := by
  obtain ⟨s, s', hfr, -, hpos, ho, h1, h0⟩ := round_first f r (resetSwarm_draw h r.init) s0 v p hv
  obtain ⟨hlog, ⟨e, he, a, hep, hea⟩, hall⟩ :=
    C05_first_call hn cfg hk s hfr _ r.iters r.nproc r.env _ v p ho
  have hit : 1 ≤ r.iters := by
    rcases Nat.eq_zero_or_pos r.iters with h' | h'
    · rw [h0 h'] at he; cases he
    · exact h'
  have h1 := hall _ (h1 hit) i
  obtain ⟨t, ht, hte⟩ := List.mem_iff_getElem.1 he
  have h2 := hlog t ht
  rw [hte] at h2
  simp only [eachParticle, Except.ok.injEq] at h2
  rw [← congrFun h2 a] at hea
  refine ⟨f (e.1 a), p, by rw [← hea], by rw [hep], ?_⟩
  rw [← hea] at h1
  simp only [XR.lt, decide_eq_false_iff_not, not_lt] at h1
  refine le_trans h1 (hf _ ?_)
  rw [hpos]
  exact hi

/-- With every topology but Star, a round that returns has found a position at least as good as all
initial positions. -/
theorem round_position {cfg : Config n d ℝ} (hk : cfg.kind.top ≠ .star) (f : Vec d ℝ → ℝ)
    (r : Round n d) (hit : 1 ≤ r.iters) {sw : Swarm n d ℝ} (hsw : resetSwarm cfg r.init = .ok sw)
    (s0 : Opt n d ℝ) (v : XR ℝ) (p : Vec d ℝ) (hv : (r.run cfg f s0).2 = .ok (v, p)) (i : Fin n) :
    f p ≤ f (sw.position i) := by
  obtain ⟨s, s', hfr, hev0, hpos, ho, h1, -⟩ := round_first f r hsw s0 v p hv
  obtain ⟨E, m, hE, hlog, hmin, hmem, -, -⟩ := C08_position_optimal cfg hk s s' (eachParticle f)
    r.iters hit r.nproc r.env v p ho
  rw [hev0, List.nil_append] at hE
  have hin := h1 hit
  rw [hE] at hin
  have hle := hmin.2.2 (.fin (f (s.swarm.position i)))
    (List.mem_flatMap.2 ⟨_, hin, List.mem_map.2 ⟨i, List.mem_finRange i, rfl⟩⟩)
  have hm : m ≠ XR.pinf := by rintro rfl; simp [XR.lt] at hle
  obtain ⟨e, he, a, hep, hea⟩ := hmem hm
  obtain ⟨t, ht, hte⟩ := List.mem_iff_getElem.1 he
  have h2 := hlog t ht
  rw [hte] at h2
  simp only [eachParticle, Except.ok.injEq] at h2
  rw [← congrFun h2 a, hep] at hea
  rw [← hea] at hle
  simp only [XR.lt, decide_eq_false_iff_not, not_lt] at hle
  rw [hpos] at hle
  exact hle

theorem round_finds (hn : 0 < n) {cfg : Config n d ℝ} {b : Bounds d ℝ} (h : DrawsInside cfg b)
    (box : Bounds d ℝ) (f : Vec d ℝ → ℝ) (c : ℝ)
    (hf : ∀ x, box.Contains x → f x ≤ c) (r : Round n d) (hit : 1 ≤ r.iters) (s0 : Opt n d ℝ)
    (i : Fin n) (hi : box.Contains fun j => b.1 j + (b.2 j - b.1 j) * r.init.pos i j)
    (v : XR ℝ) (p : Vec d ℝ) (hv : (r.run cfg f s0).2 = .ok (v, p)) :
    Finds f c (.ok (v, p)) := by
  by_cases hk : cfg.kind.top = .star
  · have hk' : cfg.kind.isStar := by
      have hb := h.continuous
      revert hk hb
      rcases hkk : cfg.kind with _ | _ | t | _
      · exact fun _ _ => trivial
      · exact fun h' => by cases h'
      · exact fun h' _ => by rw [show t = .star from h']; trivial
      · exact fun h' => by cases h'
    obtain ⟨y, q, hq, hy, hc⟩ := round_succeeds hn h hk' box f c hf r s0 i hi v p hv
    cases hq
    exact ⟨_, _, rfl, by rw [hy]; exact hc⟩
  · exact ⟨v, p, rfl, le_trans
      (round_position hk f r hit (resetSwarm_draw h r.init) s0 v p hv i) (hf _ hi)⟩

/-- What the measure-theoretic part needs to know: a round that starts a particle in a box on which
the objective is at most `c`, and that returns, succeeds. -/
def SuccessFrom (cfg : Config n d ℝ) (b : Bounds d ℝ) (f : Vec d ℝ → ℝ)
    (S : ℝ → Except Err (XR ℝ × Vec d ℝ) → Prop) (s : Ω → Opt n d ℝ) (r : Ω → ℕ → Round n d) : Prop :=
  ∀ (box : Bounds d ℝ) (c : ℝ), (∀ x, box.Contains x → f x ≤ c) → ∀ ω t i,
    box.Contains (fun j => b.1 j + (b.2 j - b.1 j) * (r ω t).init.pos i j) →
    ∀ v p, roundResult cfg f (r ω) (s ω) t = .ok (v, p) → S c (.ok (v, p))

theorem restarts_bound {cfg : Config n d ℝ} {b : Bounds d ℝ} (h : DrawsInside cfg b)
    (S : ℝ → Except Err (XR ℝ × Vec d ℝ) → Prop) (f : Vec d ℝ → ℝ)
    (s : Ω → Opt n d ℝ) (r : Ω → ℕ → Round n d) (hS : SuccessFrom cfg b f S s r)
    (hU : IidUniform P fun (k : ℕ × Fin n × Fin d) ω => (r ω k.1).init.pos k.2.1 k.2.2)
    (box : Bounds d ℝ) (hB : SubBox box b) (c : ℝ)
    (hf : ∀ x, box.Contains x → f x ≤ c) (R : ℕ) :
    P {ω | ∀ t < R, ¬ Raises (roundResult cfg f (r ω) (s ω) t) ∧
        ¬ S c (roundResult cfg f (r ω) (s ω) t)} ≤
      ENNReal.ofReal ((1 - share box b) ^ (n * R)) := by
  let e : Fin (n * R) → Fin n × Fin R := finProdFinEquiv.symm
  have he : Function.Injective e := finProdFinEquiv.symm.injective
  have hU' : IidUniform P fun (k : Fin (n * R) × Fin d) ω =>
      (r ω ((e k.1).2 : ℕ)).init.pos (e k.1).1 k.2 := by
    refine ⟨fun k => hU.meas (((e k.1).2 : ℕ), (e k.1).1, k.2),
      fun k => hU.law (((e k.1).2 : ℕ), (e k.1).1, k.2),
      hU.indep.precomp (g := fun k : Fin (n * R) × Fin d => (((e k.1).2 : ℕ), (e k.1).1, k.2)) ?_⟩
    rintro ⟨k, j⟩ ⟨k', j'⟩ hkk
    simp only [Prod.mk.injEq, Fin.val_inj] at hkk
    have : e k = e k' := Prod.ext hkk.2.1 hkk.1
    rw [he this, hkk.2.2]
  rw [← hU'.miss h.proper hB]
  refine measure_mono ?_
  intro ω hω k hc
  obtain ⟨h1, h2⟩ := hω (e k).2 (e k).2.2
  rcases hres : roundResult cfg f (r ω) (s ω) (e k).2 with e' | ⟨v, p⟩
  · exact h1 ⟨e', hres⟩
  · refine h2 ?_
    rw [hres]
    exact hS box c hf ω (e k).2 (e k).1 hc v p hres

theorem restarts_limit (hn : 0 < n) {q : ℝ} (h0 : 0 < q) (h1 : q ≤ 1) :
    Filter.Tendsto (fun R : ℕ => ENNReal.ofReal ((1 - q) ^ (n * R))) Filter.atTop (nhds 0) := by
  have hz : Filter.Tendsto (fun R : ℕ => ((1 - q) ^ n) ^ R) Filter.atTop (nhds 0) := by
    refine tendsto_pow_atTop_nhds_zero_of_lt_one (pow_nonneg (by linarith) _) ?_
    exact pow_lt_one₀ (by linarith) (by linarith) hn.ne'
  have := ENNReal.tendsto_ofReal hz
  rw [ENNReal.ofReal_zero] at this
  refine this.congr fun R => ?_
  rw [pow_mul]

theorem restarts_ae (hn : 0 < n) {cfg : Config n d ℝ} {b : Bounds d ℝ}
    (h : DrawsInside cfg b) 
    (S : ℝ → Except Err (XR ℝ × Vec d ℝ) → Prop) (f : Vec d ℝ → ℝ)
    (s : Ω → Opt n d ℝ) (r : Ω → ℕ → Round n d) (hS : SuccessFrom cfg b f S s r)
    (hU : IidUniform P fun (k : ℕ × Fin n × Fin d) ω => (r ω k.1).init.pos k.2.1 k.2.2)
    (box : Bounds d ℝ) (hB : SubBox box b) (hpos : ∀ j, box.1 j < box.2 j) (c : ℝ)
    (hf : ∀ x, box.Contains x → f x ≤ c) :
    ∀ᵐ ω ∂P, ∃ t, Raises (roundResult cfg f (r ω) (s ω) t) ∨
      S c (roundResult cfg f (r ω) (s ω) t) := by
  have hshare : 0 < share box b ∧ share box b ≤ 1 := by
    constructor
    · exact Finset.prod_pos fun j _ => div_pos (sub_pos.2 (hpos j)) (sub_pos.2 (h.proper j))
    · refine Finset.prod_le_one (fun j _ => ?_) fun j _ => ?_
      · exact div_nonneg (sub_nonneg.2 (hB j).2.1) (sub_pos.2 (h.proper j)).le
      · rw [div_le_one (sub_pos.2 (h.proper j))]; linarith [(hB j).1, (hB j).2.2]
  rw [ae_iff]
  have hle : ∀ R : ℕ, P {ω | ¬ ∃ t, Raises (roundResult cfg f (r ω) (s ω) t) ∨
      S c (roundResult cfg f (r ω) (s ω) t)} ≤
      ENNReal.ofReal ((1 - share box b) ^ (n * R)) := by
    intro R
    refine le_trans (measure_mono ?_) (restarts_bound h S f s r hS hU box hB c hf R)
    intro ω hω t _
    exact ⟨fun hr => hω ⟨t, Or.inl hr⟩, fun hs => hω ⟨t, Or.inr hs⟩⟩
  exact le_antisymm (ge_of_tendsto' (restarts_limit hn hshare.1 hshare.2) hle) bot_le

theorem restarts_converge (hn : 0 < n) {cfg : Config n d ℝ} {b : Bounds d ℝ} (h : DrawsInside cfg b)
    (S : ℝ → Except Err (XR ℝ × Vec d ℝ) → Prop) (f : Vec d ℝ → ℝ)
    (s : Ω → Opt n d ℝ) (r : Ω → ℕ → Round n d) (hS : SuccessFrom cfg b f S s r)
    (hU : IidUniform P fun (k : ℕ × Fin n × Fin d) ω => (r ω k.1).init.pos k.2.1 k.2.2)
    (hm : ∀ c c' res, c ≤ c' → S c res → S c' res) (x : Vec d ℝ) (hx : b.Contains x)
    (hcont : ∀ ε > 0, ∃ δ > 0, ∀ y, b.Contains y → (∀ j, |y j - x j| ≤ δ) → f y ≤ f x + ε) :
    ∀ᵐ ω ∂P, (∃ t, Raises (roundResult cfg f (r ω) (s ω) t)) ∨
      ∀ ε > 0, ∃ t, S (f x + ε) (roundResult cfg f (r ω) (s ω) t) := by
  have key : ∀ m : ℕ, ∀ᵐ ω ∂P, ∃ t, Raises (roundResult cfg f (r ω) (s ω) t) ∨
      S (f x + 1 / (m + 1)) (roundResult cfg f (r ω) (s ω) t) := by
    intro m
    obtain ⟨δ, hδ, hy⟩ := hcont (1 / (m + 1)) (by positivity)
    refine restarts_ae hn h S f s r hS hU
      (fun j => max (b.1 j) (x j - δ), fun j => min (b.2 j) (x j + δ)) ?_ ?_ _ ?_
    · intro j
      refine ⟨le_max_left _ _, ?_, min_le_left _ _⟩
      have := h.proper j
      exact max_le (le_min this.le (by linarith [(hx j).1])) (le_min (by linarith [(hx j).2])
        (by linarith))
    · intro j
      have := h.proper j
      exact max_lt (lt_min this (by linarith [(hx j).1])) (lt_min (by linarith [(hx j).2])
        (by linarith))
    · intro y hyb
      refine hy y (fun j => ⟨le_trans (le_max_left _ _) (hyb j).1,
        le_trans (hyb j).2 (min_le_left _ _)⟩) fun j => ?_
      have h1 := le_trans (le_max_right _ _) (hyb j).1
      have h2 := le_trans (hyb j).2 (min_le_right _ _)
      rw [abs_le]
      constructor <;> linarith
  filter_upwards [ae_all_iff.2 key] with ω hω
  by_cases hr : ∃ t, Raises (roundResult cfg f (r ω) (s ω) t)
  · exact Or.inl hr
  · right
    intro ε hε
    obtain ⟨m, hm'⟩ := exists_nat_one_div_lt hε
    obtain ⟨t, ht | ht⟩ := hω m
    · exact absurd ⟨t, ht⟩ hr
    · exact ⟨t, hm _ _ _ (by linarith) ht⟩

/-! ## C119 -/

/-- C119: if the objective is at most `c` on a box, then the probability that `R` rounds of a star
optimizer with bounds all return, and all return more than `c`, is at most
`(1 - share)^(n_particles * R)`.  Only the initial positions are assumed random; iterations,
processes and everything else drawn may be anything, also dependent on what happened before. -/
theorem C119_restarts (hn : 0 < n) {cfg : Config n d ℝ} {b : Bounds d ℝ} (h : DrawsInside cfg b)
    (hk : cfg.kind.isStar) (s : Ω → Opt n d ℝ) (r : Ω → ℕ → Round n d)
    (hU : IidUniform P fun (k : ℕ × Fin n × Fin d) ω => (r ω k.1).init.pos k.2.1 k.2.2)
    (box : Bounds d ℝ) (hB : SubBox box b) (f : Vec d ℝ → ℝ) (c : ℝ)
    (hf : ∀ x, box.Contains x → f x ≤ c) (R : ℕ) :
    P {ω | ∀ t < R, ¬ Raises (roundResult cfg f (r ω) (s ω) t) ∧
        ¬ Succeeds f c (roundResult cfg f (r ω) (s ω) t)} ≤
      ENNReal.ofReal ((1 - share box b) ^ (n * R)) :=
  restarts_bound h (Succeeds f) f s r
    (fun box c hf ω t i hi v p hv => round_succeeds hn h hk box f c hf _ _ i hi v p hv) hU box hB c hf R

/-- C119: so if the box has positive volume, almost surely some round returns at most `c` (or
raises). -/
theorem C119_almost_surely (hn : 0 < n) {cfg : Config n d ℝ} {b : Bounds d ℝ}
    (h : DrawsInside cfg b) (hk : cfg.kind.isStar) (s : Ω → Opt n d ℝ) (r : Ω → ℕ → Round n d)
    (hU : IidUniform P fun (k : ℕ × Fin n × Fin d) ω => (r ω k.1).init.pos k.2.1 k.2.2)
    (box : Bounds d ℝ) (hB : SubBox box b) (hpos : ∀ j, box.1 j < box.2 j) (f : Vec d ℝ → ℝ) (c : ℝ)
    (hf : ∀ x, box.Contains x → f x ≤ c) :
    ∀ᵐ ω ∂P, ∃ t, Raises (roundResult cfg f (r ω) (s ω) t) ∨
      Succeeds f c (roundResult cfg f (r ω) (s ω) t) :=
  restarts_ae hn h (Succeeds f) f s r
    (fun box c hf ω t i hi v p hv => round_succeeds hn h hk box f c hf _ _ i hi v p hv) hU box hB hpos c hf

/-- C119: the best of the returned costs converges to the minimum.  If the objective is continuous
at a point `x` of the bounds, then almost surely (unless a round raises) for every `ε` some round
returns at most `f x + ε`; in particular if `x` is a global minimiser in the bounds. -/
theorem C119_converges (hn : 0 < n) {cfg : Config n d ℝ} {b : Bounds d ℝ} (h : DrawsInside cfg b)
    (hk : cfg.kind.isStar) (s : Ω → Opt n d ℝ) (r : Ω → ℕ → Round n d)
    (hU : IidUniform P fun (k : ℕ × Fin n × Fin d) ω => (r ω k.1).init.pos k.2.1 k.2.2)
    (f : Vec d ℝ → ℝ) (x : Vec d ℝ) (hx : b.Contains x)
    (hcont : ∀ ε > 0, ∃ δ > 0, ∀ y, b.Contains y → (∀ j, |y j - x j| ≤ δ) → f y ≤ f x + ε) :
    ∀ᵐ ω ∂P, (∃ t, Raises (roundResult cfg f (r ω) (s ω) t)) ∨
      ∀ ε > 0, ∃ t, Succeeds f (f x + ε) (roundResult cfg f (r ω) (s ω) t) :=
  restarts_converge hn h (Succeeds f) f s r
    (fun box c hf ω t i hi v p hv => round_succeeds hn h hk box f c hf _ _ i hi v p hv) hU (fun c c' res hc ⟨y, p, h1, h2, h3⟩ => ⟨y, p, h1, h2, le_trans h3 hc⟩) x hx hcont

/-- C119: with settings under which `optimize` always returns (see C58), no round raises, so the
conclusion holds without exception. -/
theorem C119_found (hn : 0 < n) {cfg : Config n d ℝ} {b : Bounds d ℝ} (h : DrawsInside cfg b)
    (hk : cfg.kind.isStar) (hv : VelocityWorks cfg) (hb : BoundaryWorks cfg)
    (hoh : cfg.ohStrategy = []) (hkeys : ∀ key ∈ ["c1", "c2", "w"], ∃ v, (key, v) ∈ cfg.options)
    (s : Ω → Opt n d ℝ) (hs : ∀ ω, Reachable cfg (s ω)) (r : Ω → ℕ → Round n d)
    (hit : ∀ ω t, 1 ≤ (r ω t).iters) (hp : ∀ ω t, (r ω t).nproc ≠ some 0)
    (hU : IidUniform P fun (k : ℕ × Fin n × Fin d) ω => (r ω k.1).init.pos k.2.1 k.2.2)
    (f : Vec d ℝ → ℝ) (x : Vec d ℝ) (hx : b.Contains x)
    (hcont : ∀ ε > 0, ∃ δ > 0, ∀ y, b.Contains y → (∀ j, |y j - x j| ≤ δ) → f y ≤ f x + ε) :
    ∀ᵐ ω ∂P, ∀ ε > 0, ∃ t, Succeeds f (f x + ε) (roundResult cfg f (r ω) (s ω) t) := by
  filter_upwards [C119_converges hn h hk s r hU f x hx hcont] with ω hω
  rcases hω with ⟨t, e, he⟩ | hω
  · exfalso
    have hreach : ∀ t, Reachable cfg (afterRounds cfg f (r ω) (s ω) t) := by
      intro t
      induction t with
      | zero => exact hs ω
      | succ t ih =>
        rw [afterRounds]
        unfold Round.run
        have h1 : Reachable cfg (reset cfg (r ω t).init (afterRounds cfg f (r ω) (s ω) t)).1 := by
          obtain ⟨q1, q2, s0, ops, hc, hrun⟩ := ih
          refine ⟨q1, q2, s0, ops ++ [.reset (r ω t).init], hc, ?_⟩
          rw [hrun, runOps, runOps, List.foldl_append]
          rfl
        rcases hrs : reset cfg (r ω t).init (afterRounds cfg f (r ω) (s ω) t) with ⟨s', e | _⟩ <;>
          rw [hrs] at h1
        · exact h1
        · obtain ⟨q1, q2, s0, ops, hc, hrun⟩ := h1
          refine ⟨q1, q2, s0, ops ++ [.optimize (eachParticle f) (r ω t).iters (r ω t).nproc
            (r ω t).env], hc, ?_⟩
          dsimp only at hrun ⊢
          rw [hrun, runOps, runOps, List.foldl_append]
          rfl
    unfold roundResult Round.run at he
    have h1 : Reachable cfg (reset cfg (r ω t).init (afterRounds cfg f (r ω) (s ω) t)).1 := by
      obtain ⟨q1, q2, s0, ops, hc, hrun⟩ := hreach t
      refine ⟨q1, q2, s0, ops ++ [.reset (r ω t).init], hc, ?_⟩
      rw [hrun, runOps, runOps, List.foldl_append]
      rfl
    rcases hrs : reset cfg (r ω t).init (afterRounds cfg f (r ω) (s ω) t) with ⟨s', e' | _⟩
    · unfold reset at hrs
      rw [resetSwarm_draw h] at hrs
      simp at hrs
    · rw [hrs] at he h1
      dsimp only at he h1
      obtain ⟨v, hv'⟩ := C58_returns hn cfg hv hb hoh hkeys s' h1 (eachParticle f) (r ω t).iters
        (hit ω t) (r ω t).nproc (hp ω t) (r ω t).env
        (fun i y => ⟨_, rfl, fun _ => ⟨⟨0, hn⟩, rfl⟩⟩)
        (fun i => by
          have htop : cfg.kind.top = .star := by
            revert hk
            cases cfg.kind with
            | globalBest => exact fun _ => rfl
            | general t => cases t <;> intro hk <;> first | rfl | exact (hk : False).elim
            | _ => exact fun hk => (hk : False).elim
          unfold TopologyWorks
          rw [htop]
          trivial)
      rw [hv'] at he
      cases he
  · exact hω

/-- C119: every continuous optimizer with bounds, whatever its topology, finds the optimum by
restarting, if the returned position counts (with other topologies than Star the returned cost may
be that of another particle, C08). -/
theorem C119_any_topology (hn : 0 < n) {cfg : Config n d ℝ} {b : Bounds d ℝ} (h : DrawsInside cfg b)
    (s : Ω → Opt n d ℝ) (r : Ω → ℕ → Round n d) (hit : ∀ ω t, 1 ≤ (r ω t).iters)
    (hU : IidUniform P fun (k : ℕ × Fin n × Fin d) ω => (r ω k.1).init.pos k.2.1 k.2.2)
    (box : Bounds d ℝ) (hB : SubBox box b) (f : Vec d ℝ → ℝ) (c : ℝ)
    (hf : ∀ x, box.Contains x → f x ≤ c) (R : ℕ) :
    P {ω | ∀ t < R, ¬ Raises (roundResult cfg f (r ω) (s ω) t) ∧
        ¬ Finds f c (roundResult cfg f (r ω) (s ω) t)} ≤
      ENNReal.ofReal ((1 - share box b) ^ (n * R)) :=
  restarts_bound h (Finds f) f s r
    (fun box c hf ω t i hi v p hv => round_finds hn h box f c hf _ (hit ω t) _ i hi v p hv) hU box hB c hf R

/-- C119: with any topology the best returned position converges to the optimum, almost surely. -/
theorem C119_any_converges (hn : 0 < n) {cfg : Config n d ℝ} {b : Bounds d ℝ} (h : DrawsInside cfg b)
    (s : Ω → Opt n d ℝ) (r : Ω → ℕ → Round n d) (hit : ∀ ω t, 1 ≤ (r ω t).iters)
    (hU : IidUniform P fun (k : ℕ × Fin n × Fin d) ω => (r ω k.1).init.pos k.2.1 k.2.2)
    (f : Vec d ℝ → ℝ) (x : Vec d ℝ) (hx : b.Contains x)
    (hcont : ∀ ε > 0, ∃ δ > 0, ∀ y, b.Contains y → (∀ j, |y j - x j| ≤ δ) → f y ≤ f x + ε) :
    ∀ᵐ ω ∂P, (∃ t, Raises (roundResult cfg f (r ω) (s ω) t)) ∨
      ∀ ε > 0, ∃ t, Finds f (f x + ε) (roundResult cfg f (r ω) (s ω) t) :=
  restarts_converge hn h (Finds f) f s r
    (fun box c hf ω t i hi v p hv => round_finds hn h box f c hf _ (hit ω t) _ i hi v p hv) hU (fun c c' res hc ⟨v, p, h1, h2⟩ => ⟨v, p, h1, le_trans h2 hc⟩) x hx hcont

/-- C119: restarting is needed.  With `vh_strategy='adjust'` (and no clamp), calling `optimize` again
and again on the same object, with however many iterations, does not help: with probability at least
`(1 - share)^n_particles` no call ever returns a position in the box.  The random numbers are those of
the unit interval. -/
theorem C119_without_restart {cfg : Config n d ℝ} {b : Bounds d ℝ} (h : DrawsInside cfg b)
    (hv : cfg.vhStrategy = "adjust") (hc : cfg.clamp = none) (r1 r2 : Ω → InitDraw n d ℝ)
    (hU : IidUniform P fun (k : Fin n × Fin d) ω => (r2 ω).pos k.1 k.2)
    (h01 : ∀ ω i j, 0 ≤ (r2 ω).pos i j ∧ (r2 ω).pos i j ≤ 1) (box : Bounds d ℝ)
    (hB : SubBox box b) (f : Vec d ℝ → ℝ) :
    ENNReal.ofReal ((1 - share box b) ^ n) ≤
      P {ω | ∃ s, construct cfg (r1 ω) (r2 ω) = .ok s ∧
        ∀ (ops : List (Op n d ℝ)), (∀ op ∈ ops, op.isOptimize) →
        ∀ iters nproc env v p, (optimize cfg (eachParticle f) iters nproc env
          (runOps cfg s ops)).2 = .ok (v, p) → ¬ box.Contains p} := by
  rw [← C74_miss h r1 r2 hU box hB]
  refine measure_mono ?_
  rintro ω ⟨s, hs, hi⟩
  refine ⟨s, hs, fun ops hops iters nproc env v p ho => ?_⟩
  have ho' : optimize cfg (eachParticle f) iters nproc env (runOps cfg s ops) =
      ((optimize cfg (eachParticle f) iters nproc env (runOps cfg s ops)).1, .ok (v, p)) := by
    rw [← ho]
  have hin : ∀ b', cfg.bounds = some b' → InBox b' s.swarm.position := by
    intro b' h'
    rw [h.bounds] at h'
    cases h'
    rw [construct_draw h] at hs
    cases hs
    intro i j
    have hw := h.proper j
    obtain ⟨u0, u1⟩ := h01 ω i j
    simp only [mkSwarm]
    constructor <;> nlinarith
  obtain ⟨i, rfl⟩ := C23_returned cfg s (Or.inl ⟨_, _, hs⟩) h.continuous hv
    (fun c h' => by rw [hc] at h'; cases h') hin ops hops _ iters nproc env _ v p ho'
  exact hi i

/-! ### Non-vacuity -/

/-- Ten particles in the square `[-1, 1]²` minimising `x² + y²`, a thousand iterations per round: all
hypotheses hold for GlobalBestPSO with the default strategies, with the minimiser 0. -/
example : ∃ (cfg : Config 10 2 ℝ) (b : Bounds 2 ℝ) (r : (ℕ × Fin 10 × Fin 2 → ℝ) → ℕ → Round 10 2)
    (s : Opt 10 2 ℝ), DrawsInside cfg b ∧ cfg.kind.isStar ∧ VelocityWorks cfg ∧ BoundaryWorks cfg ∧
    cfg.ohStrategy = [] ∧ (∀ key ∈ ["c1", "c2", "w"], ∃ v, (key, v) ∈ cfg.options) ∧
    Reachable cfg s ∧ (∀ ω t, (r ω t).iters = 1000 ∧ (r ω t).nproc = none) ∧
    IidUniform (Measure.infinitePi fun _ : ℕ × Fin 10 × Fin 2 => unitLaw)
      (fun (k : ℕ × Fin 10 × Fin 2) ω => (r ω k.1).init.pos k.2.1 k.2.2) ∧ b.Contains (fun _ => 0) ∧
    ∀ ε > 0, ∃ δ > 0, ∀ y : Vec 2 ℝ, b.Contains y → (∀ j, |y j - 0| ≤ δ) →
      y 0 ^ 2 + y 1 ^ 2 ≤ 0 ^ 2 + 0 ^ 2 + ε := by
  refine ⟨{ kind := .globalBest, options := [("c1", 0.5), ("c2", 0.3), ("w", 0.9)]
            bounds := some (fun _ => -1, fun _ => 1), center := fun _ => 1 },
    (fun _ => -1, fun _ => 1),
    fun ω t => ⟨⟨fun i j => ω (t, i, j), fun _ _ => true, fun _ j => j, fun i j => ω (t, i, j)⟩,
      fun _ => { r1 := fun _ _ => 0, r2 := fun _ _ => 0, bh := ⟨fun _ => 0, fun _ => 0, 0⟩
                 oracle := ⟨fun _ _ _ _ => [], fun _ => .error .valueError, fun _ _ => []⟩
                 oh := fun _ => 0, thr := fun _ => 0 }, 1000, none⟩, _,
    ⟨?_, rfl, ?_, rfl, fun _ => rfl, ?_⟩, by simp [Kind.isStar], Or.inl (by simp),
    Or.inr (Or.inr ⟨_, rfl, ?_, by simp⟩), rfl, ?_,
    ⟨⟨fun _ _ => 0, fun _ _ => true, fun _ j => j, fun _ _ => 0⟩,
      ⟨fun _ _ => 0, fun _ _ => true, fun _ j => j, fun _ _ => 1 / 2⟩, _, [], rfl, rfl⟩,
    fun ω t => ⟨rfl, rfl⟩, iid_coordinates _, ?_, ?_⟩
  · simp
  · intro j; norm_num
  · exact ⟨⟨fun _ _ => 0, fun _ _ => true, fun _ j => j, fun _ _ => 0⟩,
      ⟨fun _ _ => 0, fun _ _ => true, fun _ j => j, fun _ _ => 1 / 2⟩, _, rfl⟩
  · intro j; norm_num
  · intro key hkey
    simp only [List.mem_cons, List.not_mem_nil, or_false] at hkey
    rcases hkey with rfl | rfl | rfl <;> simp
  · intro j; norm_num
  · intro ε hε
    refine ⟨min 1 (ε / 2), lt_min one_pos (by linarith), fun y _ hy => ?_⟩
    have h0 := hy 0
    have h1 := hy 1
    rw [sub_zero] at h0 h1
    have a0 := abs_nonneg (y 0)
    have a1 := abs_nonneg (y 1)
    have m1 := min_le_left 1 (ε / 2)
    have m2 := min_le_right 1 (ε / 2)
    have e0 := sq_abs (y 0)
    have e1 := sq_abs (y 1)
    nlinarith

/-- Five particles of LocalBestPSO with three neighbours: the hypotheses of `C119_any_topology`. -/
example : ∃ (cfg : Config 5 2 ℝ) (b : Bounds 2 ℝ), DrawsInside cfg b ∧
    cfg.kind = .localBest false ∧ ∃ r : (ℕ × Fin 5 × Fin 2 → ℝ) → ℕ → Round 5 2,
    (∀ ω t, 1 ≤ (r ω t).iters) ∧
    IidUniform (Measure.infinitePi fun _ : ℕ × Fin 5 × Fin 2 => unitLaw)
      (fun (k : ℕ × Fin 5 × Fin 2) ω => (r ω k.1).init.pos k.2.1 k.2.2) := by
  refine ⟨{ kind := .localBest false, options := [("c1", 0.5), ("c2", 0.3), ("w", 0.9)]
            args := { k := some 3, p := some 2 }
            bounds := some (fun _ => -1, fun _ => 1), center := fun _ => 1 },
    (fun _ => -1, fun _ => 1), ⟨by simp, rfl, fun j => by norm_num, rfl, fun _ => rfl, ?_⟩, rfl,
    fun ω t => ⟨⟨fun i j => ω (t, i, j), fun _ _ => true, fun _ j => j, fun i j => ω (t, i, j)⟩,
      fun _ => { r1 := fun _ _ => 0, r2 := fun _ _ => 0, bh := ⟨fun _ => 0, fun _ => 0, 0⟩
                 oracle := ⟨fun _ _ _ _ => [], fun _ => .error .valueError, fun _ _ => []⟩
                 oh := fun _ => 0, thr := fun _ => 0 }, 1000, none⟩,
    fun ω t => by norm_num, iid_coordinates _⟩
  exact ⟨⟨fun _ _ => 0, fun _ _ => true, fun _ j => j, fun _ _ => 0⟩,
      ⟨fun _ _ => 0, fun _ _ => true, fun _ j => j, fun _ _ => 1 / 2⟩, _, rfl⟩

/-- Numbers that `C119_without_restart` speaks of: the coordinates of the cube, clipped to `[0, 1]`
(which changes nothing, almost surely), are still independent and uniform. -/
example : IidUniform (Measure.infinitePi fun _ : Fin 3 × Fin 2 => unitLaw)
      (fun (k : Fin 3 × Fin 2) ω => (InitDraw.mk (n := 3) (d := 2)
        (fun i j => max 0 (min 1 (ω (i, j)))) (fun _ _ => true) (fun _ j => j)
        fun i j => ω (i, j)).pos k.1 k.2) ∧
    ∀ (ω : Fin 3 × Fin 2 → ℝ) i j, 0 ≤ max 0 (min 1 (ω (i, j))) ∧ max 0 (min 1 (ω (i, j))) ≤ 1 := by
  refine ⟨?_, fun ω i j => ⟨le_max_left _ _, max_le zero_le_one (min_le_left _ _)⟩⟩
  have hg : Measurable fun x : ℝ => max 0 (min 1 x) := by fun_prop
  have hmap : unitLaw.map (fun x : ℝ => max 0 (min 1 x)) = unitLaw := by
    have : (fun x : ℝ => max 0 (min 1 x)) =ᵐ[unitLaw] id := by
      unfold unitLaw
      filter_upwards [ae_restrict_mem (by measurability)] with x hx
      simp only [Set.mem_Icc] at hx
      rw [min_eq_right (by linarith [hx.2]), max_eq_right hx.1]
      rfl
    rw [Measure.map_congr this, Measure.map_id]
  have hi := iid_coordinates (Fin 3 × Fin 2)
  refine ⟨fun k => hg.comp (hi.meas k), fun k => ?_, hi.indep.comp _ fun _ => hg⟩
  have h1 := hi.law k
  have h2 := Measure.map_map hg (hi.meas k) (μ := Measure.infinitePi fun _ => unitLaw)
  rw [h1, hmap] at h2
  exact h2.symm

end PySwarms
