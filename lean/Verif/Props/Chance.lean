import Verif.Lemmas.Uniform
import Verif.Lemmas.Runs
import Verif.Props.Best
import Verif.Props.Binary
import Verif.Props.Search

/-!
# The distributions of the random choices (C74)

Random numbers are ideal: independent, real, uniform on `[0, 1]` (see `Verif/SpecChance.lean`).
-/

open MeasureTheory ProbabilityTheory

set_option linter.unusedSectionVars false

namespace PySwarms

variable {n d : ℕ} {Ω : Type*} [MeasurableSpace Ω] {P : Measure Ω}

/-- A continuous optimizer class with bounds, without `init_pos` and with `center = 1`, whose
constructor accepts its arguments. -/
structure DrawsInside (cfg : Config n d ℝ) (b : Bounds d ℝ) : Prop where
  continuous : cfg.kind ≠ .binary
  bounds : cfg.bounds = some b
  proper : ProperBounds b
  initPos : cfg.initPos = none
  center : ∀ j, cfg.center j = 1
  accepted : ∃ r1 r2 s, construct cfg r1 r2 = .ok s

theorem resetSwarm_draw {cfg : Config n d ℝ} {b : Bounds d ℝ} (h : DrawsInside cfg b)
    (r : InitDraw n d ℝ) :
    resetSwarm cfg r = .ok (mkSwarm (fun i j => b.1 j + (b.2 j - b.1 j) * r.pos i j)
      (generateVelocity cfg.clamp r.vel) cfg.options) := by
  have hb : cfg.isBinary = false := by
    unfold Config.isBinary
    split
    · next h' => exact absurd h' h.continuous
    · rfl
  unfold resetSwarm createSwarm
  simp only [hb, h.bounds, h.initPos, generateSwarm, h.center, one_mul, Bool.false_eq_true,
    if_false]

theorem construct_draw {cfg : Config n d ℝ} {b : Bounds d ℝ} (h : DrawsInside cfg b)
    (r1 r2 : InitDraw n d ℝ) :
    construct cfg r1 r2 = .ok
      { swarm := mkSwarm (fun i j => b.1 j + (b.2 j - b.1 j) * r2.pos i j)
          (generateVelocity cfg.clamp r2.vel) cfg.options } := by
  obtain ⟨q1, q2, s, hs⟩ := h.accepted
  unfold construct at hs ⊢
  split at hs
  · cases hs
  · next hk =>
    rw [if_neg hk]
    split at hs
    · cases hs
    · next hf => simp only [resetSwarm_draw h]

/-- C74: the initial positions are independent and uniform in the bounds.  The probability that
every particle `i` starts in a given box `B i` is the product of the shares of the boxes. -/
theorem C74_initial_positions {cfg : Config n d ℝ} {b : Bounds d ℝ} (h : DrawsInside cfg b)
    (r1 r2 : Ω → InitDraw n d ℝ)
    (hU : IidUniform P fun (k : Fin n × Fin d) ω => (r2 ω).pos k.1 k.2)
    (B : Fin n → Bounds d ℝ) (hB : ∀ i, SubBox (B i) b) :
    P {ω | ∃ s, construct cfg (r1 ω) (r2 ω) = .ok s ∧ ∀ i, (B i).Contains (s.swarm.position i)} =
      ENNReal.ofReal (∏ i, share (B i) b) := by
  have := hU.affine_box (fun k => b.1 k.2) (fun k => b.2 k.2) (fun k => (B k.1).1 k.2)
    (fun k => (B k.1).2 k.2) (fun k => h.proper k.2) (fun k => (hB k.1 k.2).1)
    (fun k => (hB k.1 k.2).2.1) fun k => (hB k.1 k.2).2.2
  rw [Fintype.prod_prod_type] at this
  rw [show (∏ i, share (B i) b) = _ from rfl]
  unfold share
  rw [← this]
  congr 1
  ext ω
  simp only [Set.mem_setOf_eq, construct_draw h, Except.ok.injEq, exists_eq_left', mkSwarm,
    Bounds.Contains, Prod.forall]

/-- C74: the initial velocities are independent and uniform in the clamp, or in `[0, 1]` if there is
none. -/
theorem C74_initial_velocities {cfg : Config n d ℝ} {b : Bounds d ℝ} (h : DrawsInside cfg b)
    (c : Bounds d ℝ) (hc : cfg.clamp = some c ∨ cfg.clamp = none ∧ c = (fun _ => 0, fun _ => 1))
    (hp : ProperBounds c) (r1 r2 : Ω → InitDraw n d ℝ)
    (hU : IidUniform P fun (k : Fin n × Fin d) ω => (r2 ω).vel k.1 k.2)
    (B : Fin n → Bounds d ℝ) (hB : ∀ i, SubBox (B i) c) :
    P {ω | ∃ s, construct cfg (r1 ω) (r2 ω) = .ok s ∧ ∀ i, (B i).Contains (s.swarm.velocity i)} =
      ENNReal.ofReal (∏ i, share (B i) c) := by
  have hv : ∀ u : Mat n d ℝ, generateVelocity cfg.clamp u =
      fun i j => c.1 j + (c.2 j - c.1 j) * u i j := by
    intro u
    funext i j
    rcases hc with hc | ⟨hc, rfl⟩ <;> rw [hc] <;> simp [generateVelocity] <;> ring
  have := hU.affine_box (fun k => c.1 k.2) (fun k => c.2 k.2) (fun k => (B k.1).1 k.2)
    (fun k => (B k.1).2 k.2) (fun k => hp k.2) (fun k => (hB k.1 k.2).1)
    (fun k => (hB k.1 k.2).2.1) fun k => (hB k.1 k.2).2.2
  rw [Fintype.prod_prod_type] at this
  unfold share
  rw [← this]
  congr 1
  ext ω
  simp only [Set.mem_setOf_eq, construct_draw h, Except.ok.injEq, exists_eq_left', mkSwarm,
    Bounds.Contains, Prod.forall, hv]

/-- C74: the probability that no particle starts in a given box is `(1 - share)^n`. -/
theorem C74_miss {cfg : Config n d ℝ} {b : Bounds d ℝ} (h : DrawsInside cfg b)
    (r1 r2 : Ω → InitDraw n d ℝ)
    (hU : IidUniform P fun (k : Fin n × Fin d) ω => (r2 ω).pos k.1 k.2)
    (box : Bounds d ℝ) (hB : SubBox box b) :
    P {ω | ∃ s, construct cfg (r1 ω) (r2 ω) = .ok s ∧ ∀ i, ¬ box.Contains (s.swarm.position i)} =
      ENNReal.ofReal ((1 - share box b) ^ n) := by
  rw [← hU.miss h.proper hB]
  congr 1
  ext ω
  simp only [Set.mem_setOf_eq, construct_draw h, Except.ok.injEq, exists_eq_left', mkSwarm]

/-- The first entry of the log of a loop is the evaluation of the swarm it starts with. -/
theorem loop_first {K : Type} [Field K] [LinearOrder K] [Transc K] [FloorRing K]
    (cfg : Config n d K) (ev : Nat → Mat n d K → Except Err (Costs n K))
    (env : Nat → Draw n d K) (iters m i : Nat) (q : List Bool) (s : Opt n d K) (c : Costs n K)
    (hc : ev i s.swarm.position = .ok c) :
    ∃ E, (loop cfg ev env iters (m + 1) i q s).1.evals = s.evals ++ (s.swarm.position, c) :: E := by
  have hcs := iterate_cases cfg (ev i) (env i) iters i q s
  have evs : ∀ c t g s' o, moveSwarm cfg (env i) iters i (recordBest t g (recordEval c s))
      = (s', o) → s'.evals = s.evals ++ [(s.swarm.position, c)] := by
    intro c t g s' o hm
    have hf := moveSwarm_frame cfg (env i) iters i (recordBest t g (recordEval c s))
    rw [hm] at hf
    rw [hf.2.2.2.2.2.2.2.2.2.2.2.1]; rfl
  unfold loop
  generalize hit : iterate cfg (ev i) (env i) iters i q s = res at hcs
  obtain ⟨s', o⟩ := res
  simp only at hcs ⊢
  cases hcs with
  | evalError e h => rw [hc] at h; cases h
  | gbestError c' t e h hg => rw [hc] at h; cases h; exact ⟨[], rfl⟩
  | stop c' t g h => rw [hc] at h; cases h; exact ⟨[], rfl⟩
  | moveError c' t g s' e h _ _ hm =>
    rw [hc] at h; cases h
    exact ⟨[], evs _ _ _ _ _ hm⟩
  | moved c' t g s' h _ _ hm =>
    rw [hc] at h; cases h
    simp only
    obtain ⟨E, h1, -⟩ := loop_log cfg ev env iters m (i + 1) _ s'
    exact ⟨E, by rw [h1, evs _ _ _ _ _ hm]; simp⟩

/-- C74: if the objective is at most `c` on a box, then a run of a star optimizer, of any length
and with any options, returns a cost above `c` with probability at most `(1 - share)^n`, whatever
happens in its iterations. -/
theorem C74_guarantee (hn : 0 < n) {cfg : Config n d ℝ} {b : Bounds d ℝ} (h : DrawsInside cfg b)
    (hk : cfg.kind.isStar) (r1 r2 : Ω → InitDraw n d ℝ)
    (hU : IidUniform P fun (k : Fin n × Fin d) ω => (r2 ω).pos k.1 k.2)
    (box : Bounds d ℝ) (hB : SubBox box b) (f : Vec d ℝ → ℝ) (c : ℝ)
    (hf : ∀ x, box.Contains x → f x ≤ c) (iters : ℕ) (nproc : Option ℕ)
    (env : Ω → ℕ → Draw n d ℝ) :
    P {ω | ∃ s v p, construct cfg (r1 ω) (r2 ω) = .ok s ∧
        (optimize cfg (eachParticle f) iters nproc (env ω) s).2 = .ok (v, p) ∧
        ¬ (∃ y, v = .fin y ∧ y ≤ c)} ≤ ENNReal.ofReal ((1 - share box b) ^ n) := by
  rw [← C74_miss h r1 r2 hU box hB]
  refine measure_mono ?_
  rintro ω ⟨s, v, p, hs, ho, hv⟩
  refine ⟨s, hs, fun i hi => hv ?_⟩
  have hfr : Fresh cfg s := Or.inl ⟨_, _, hs⟩
  have ho' : optimize cfg (eachParticle f) iters nproc (env ω) s =
      ((optimize cfg (eachParticle f) iters nproc (env ω) s).1, .ok (v, p)) := by
    rw [← ho]
  obtain ⟨hlog, ⟨e, he, a, -, hea⟩, hall⟩ :=
    C05_first_call hn cfg hk s hfr _ iters nproc (env ω) _ v p ho'
  have hev0 : s.evals = [] := by
    obtain ⟨_, _, rfl⟩ := construct_ok cfg _ _ s hs; rfl
  obtain ⟨s1, hl, hs1, -⟩ := optimize_ok cfg _ iters nproc (env ω) s _ v p ho'
  have hevs : (optimize cfg (eachParticle f) iters nproc (env ω) s).1.evals = s1.evals := by
    rw [hs1]
  -- the initial swarm has been evaluated
  have hfirst : (s.swarm.position, fun i => XR.fin (f (s.swarm.position i))) ∈ s1.evals := by
    cases iters with
    | zero =>
      have : s1.evals = [] := by
        simp only [loop, Prod.mk.injEq] at hl
        rw [← hl.1]; exact hev0
      rw [hevs, this] at he; cases he
    | succ m =>
      obtain ⟨E, hE⟩ := loop_first cfg (eachParticle f) (env ω) (m + 1) m 0 []
        (startState cfg nproc s) (fun i => XR.fin (f (s.swarm.position i))) rfl
      rw [hl] at hE
      simp only at hE
      rw [hE]
      exact List.mem_append_right _ (List.mem_cons_self ..)
  have h1 := hall _ (by rw [hevs]; exact hfirst) i
  -- the returned cost is a value of the objective
  obtain ⟨t, ht, hte⟩ := List.mem_iff_getElem.1 he
  have h2 := hlog t ht
  rw [hte] at h2
  simp only [eachParticle, Except.ok.injEq] at h2
  rw [← congrFun h2 a] at hea
  refine ⟨_, hea.symm, ?_⟩
  rw [← hea] at h1
  simp only [XR.lt, decide_eq_false_iff_not, not_lt] at h1
  exact le_trans h1 (hf _ hi)

/-- C74: `compute_velocity` without clamp.  In every coordinate the new velocity is
`w v + c1 (p - x) / 2 + c2 (g - x) / 2` on average, with variance
`(c1² (p - x)² + c2² (g - x)²) / 12`; `p` is the particle's own best, `g` the best it follows. -/
theorem C74_velocity (s : Swarm n d ℝ) (mem : Option (Mat n d ℝ)) (bounds : Option (Bounds d ℝ))
    (r1 r2 V : Ω → Mat n d ℝ)
    (hU : IidUniform P fun (k : Bool × Fin n × Fin d) ω =>
      if k.1 then r2 ω k.2.1 k.2.2 else r1 ω k.2.1 k.2.2)
    (hV : ∀ ω, (computeVelocity s none "unmodified" mem bounds (r1 ω) (r2 ω)).2 = .ok (V ω))
    (c1 c2 w : ℝ) (h1 : s.options.lookup "c1" = some c1) (h2 : s.options.lookup "c2" = some c2)
    (hw : s.options.lookup "w" = some w) (i : Fin n) (j : Fin d) (x v p g : ℝ)
    (hx : s.position i j = x) (hv : s.velocity i j = v) (hp : s.pbestPos i j = p)
    (hg : (∃ G, s.bestPos = .single G ∧ G j = g) ∨ ∃ G, s.bestPos = .perParticle G ∧ G i j = g) :
    ∫ ω, V ω i j ∂P = w * v + c1 / 2 * (p - x) + c2 / 2 * (g - x) ∧
    ∫ ω, (V ω i j - (w * v + c1 / 2 * (p - x) + c2 / 2 * (g - x))) ^ 2 ∂P =
      (c1 ^ 2 * (p - x) ^ 2 + c2 ^ 2 * (g - x) ^ 2) / 12 := by
  have hrow : s.bestPos.row s.position i j = g := by
    rcases hg with ⟨G, hG, rfl⟩ | ⟨G, hG, rfl⟩ <;> rw [hG] <;> rfl
  have hVe : ∀ ω, V ω i j = w * v + (c1 * (p - x)) * r1 ω i j + (c2 * (g - x)) * r2 ω i j := by
    intro ω
    have hq : computeVelocity s none "unmodified" mem bounds (r1 ω) (r2 ω) =
        ((computeVelocity s none "unmodified" mem bounds (r1 ω) (r2 ω)).1, .ok (V ω)) := by
      rw [← hV ω]
    obtain ⟨c1', c2', w', e1, e2, e3, hh⟩ := computeVelocity_ok hq
    rw [h1] at e1; rw [h2] at e2; rw [hw] at e3
    cases e1; cases e2; cases e3
    simp only [vhCall, if_true, Prod.mk.injEq, Except.ok.injEq] at hh
    rw [← hh.2]
    simp only [vhUnmodified, clampOpt, tempVelocity, hrow, hx, hv, hp]
    ring
  have := hU.two (k := (false, i, j)) (l := (true, i, j)) (by simp) (w * v) (c1 * (p - x))
    (c2 * (g - x))
  simp only [Bool.false_eq_true, if_false, if_true] at this
  simp only [hVe]
  rw [show w * v + c1 / 2 * (p - x) + c2 / 2 * (g - x) =
    w * v + (c1 * (p - x) + c2 * (g - x)) / 2 by ring]
  refine ⟨this.1, this.2.trans ?_⟩
  ring

/-- C74: the boundary strategy `random` puts a particle that has left the bounds at a uniformly
distributed point of the box. -/
theorem C74_relocation (b : Bounds d ℝ) (hb : ProperBounds b) (mem : Option (Mat n d ℝ))
    (r : Ω → BHDraw d ℝ)
    (hU : IidUniform P fun (k : Bool × Fin d) ω => if k.1 then (r ω).u k.2 else (r ω).l k.2)
    (x : Mat n d ℝ) (i : Fin n) (hout : ∃ j, x i j < b.1 j ∨ b.2 j < x i j)
    (box : Bounds d ℝ) (hB : SubBox box b) :
    P {ω | ∃ y, (bhCall "random" mem b (r ω) x).2 = .ok y ∧ box.Contains (y i)} =
      ENNReal.ofReal (share box b) := by
  have key : ∃ k : Bool, ∀ ω, (bhRandom b (r ω).u (r ω).l x) i =
      fun j => b.1 j + (b.2 j - b.1 j) * (if k then (r ω).u j else (r ω).l j) := by
    by_cases hl : rowLow b x i = true
    · refine ⟨false, fun ω => funext fun j => ?_⟩
      simp only [bhRandom, hl, if_true, Bool.false_eq_true, if_false]; ring
    · have hh : rowHigh b x i = true := by
        obtain ⟨j, hj⟩ := hout
        simp only [rowLow, List.any_eq_true, isLow, decide_eq_true_eq, not_exists, not_and] at hl
        rcases hj with hj | hj
        · exact absurd hj (hl j (List.mem_finRange j))
        · simp only [rowHigh, List.any_eq_true, isHigh, decide_eq_true_eq]
          exact ⟨j, List.mem_finRange j, hj⟩
      refine ⟨true, fun ω => funext fun j => ?_⟩
      simp only [bhRandom, hl, hh, if_true, Bool.false_eq_true, if_false]; ring
  obtain ⟨k, hk⟩ := key
  have := (hU.row k).affine_box b.1 b.2 box.1 box.2 hb (fun j => (hB j).1) (fun j => (hB j).2.1)
      fun j => (hB j).2.2
  unfold share
  rw [← this]
  congr 1
  ext ω
  have hc : (bhCall "random" mem b (r ω) x).2 = .ok (bhRandom b (r ω).u (r ω).l x) := by
    simp [bhCall]
  simp only [Set.mem_setOf_eq, hc, Except.ok.injEq, exists_eq_left', Bounds.Contains, hk]

/-- The probability that one particle of BinaryPSO gets given bits. -/
theorem binary_row (thr : Ω → Vec d ℝ) (hU : IidUniform P fun j ω => thr ω j) (v : Mat n d ℝ)
    (a : Fin n) (bits : Fin d → Bool) :
    P {ω | ∀ j, binaryPosition (thr ω) v a j = if bits j then 1 else 0} =
      ENNReal.ofReal (∏ j, if bits j then 1 / (1 + Real.exp (-v a j))
        else 1 - 1 / (1 + Real.exp (-v a j))) := by
  have hσ : ∀ j, 0 < 1 / (1 + Real.exp (-v a j)) ∧ 1 / (1 + Real.exp (-v a j)) < 1 := by
    intro j
    have := Real.exp_pos (-v a j)
    constructor
    · positivity
    · rw [div_lt_one (by positivity)]; linarith
  have hset : {ω | ∀ j, binaryPosition (thr ω) v a j = if bits j then 1 else 0} =
      ⋂ j ∈ (Finset.univ : Finset (Fin d)),
      (fun ω => thr ω j) ⁻¹' (if bits j then Set.Iio (1 / (1 + Real.exp (-v a j)))
        else Set.Ici (1 / (1 + Real.exp (-v a j)))) := by
    ext ω
    simp only [Set.mem_setOf_eq, Set.mem_iInter, Finset.mem_univ, forall_true_left,
      Set.mem_preimage]
    refine forall_congr' fun j => ?_
    show (if thr ω j < 1 / (1 + Real.exp (-v a j)) then (1 : ℝ) else 0) = _ ↔ _
    cases bits j
    · simp only [Bool.false_eq_true, if_false, Set.mem_Ici]
      split <;> simp_all
    · simp only [if_true, Set.mem_Iio]
      split <;> simp_all
  rw [hset, hU.indep.measure_inter_preimage_eq_mul Finset.univ
    (sets := fun j => if bits j then Set.Iio (1 / (1 + Real.exp (-v a j)))
      else Set.Ici (1 / (1 + Real.exp (-v a j)))) ?_, ENNReal.ofReal_prod_of_nonneg]
  · refine Finset.prod_congr rfl fun j _ => ?_
    cases bits j
    · simp only [Bool.false_eq_true, if_false]
      rw [hU.preimage j measurableSet_Ici, unitLaw_Ici (hσ j).1.le (hσ j).2.le]
    · simp only [if_true]
      rw [hU.preimage j measurableSet_Iio, unitLaw_Iio (hσ j).1.le (hσ j).2.le]
  · intro j _
    split
    · exact (hσ j).1.le
    · linarith [(hσ j).2]
  · intro j _
    split
    · exact measurableSet_Iio
    · exact measurableSet_Ici

/-- C74: the position update of BinaryPSO.  The bits of a particle are independent, and bit `j` is 1
with probability `1 / (1 + exp (-v j))`, where `v` is the particle's new velocity.  Hence every bit
string can come out, whatever the state. -/
theorem C74_binary (cfg : Config n d ℝ) (hk : cfg.kind = .binary) (r : Draw n d ℝ)
    (thr : Ω → Vec d ℝ) (hU : IidUniform P fun j ω => thr ω j) (iters i : ℕ) (s : Opt n d ℝ)
    (hok : (moveSwarm cfg r iters i s).2 = .ok ()) :
    ∃ v : Mat n d ℝ,
      (∀ ω, (moveSwarm cfg { r with thr := thr ω } iters i s).2 = .ok () ∧
        (moveSwarm cfg { r with thr := thr ω } iters i s).1.swarm.velocity = v) ∧
      ∀ (a : Fin n) (bits : Fin d → Bool),
        P {ω | ∀ j, (moveSwarm cfg { r with thr := thr ω } iters i s).1.swarm.position a j =
          if bits j then 1 else 0} =
          ENNReal.ofReal (∏ j, if bits j then 1 / (1 + Real.exp (-v a j))
            else 1 - 1 / (1 + Real.exp (-v a j))) ∧
        0 < P {ω | ∀ j, (moveSwarm cfg { r with thr := thr ω } iters i s).1.swarm.position a j =
          if bits j then 1 else 0} := by
  have hc := moveSwarm_cases cfg r iters i s
  rw [hok] at hc
  generalize (moveSwarm cfg r iters i s).1 = s' at hc
  cases hc with
  | ok o vm v bm p h hv hp =>
    have hmv : ∀ ω, moveSwarm cfg { r with thr := thr ω } iters i s =
        ({ s with vhMem := vm, bhMem := s.bhMem
                  swarm := { s.swarm with options := o, velocity := v
                                          position := binaryPosition (thr ω) v } }, .ok ()) := by
      intro ω
      have h' : callOptions cfg iters i { r with thr := thr ω } s.swarm = .ok o := h
      unfold moveSwarm
      rw [h']
      simp only
      rw [hv]
      simp only [callPosition, hk]
    refine ⟨v, fun ω => by rw [hmv ω]; exact ⟨rfl, rfl⟩, fun a bits => ?_⟩
    have hσ : ∀ j, 0 < 1 / (1 + Real.exp (-v a j)) ∧ 1 / (1 + Real.exp (-v a j)) < 1 := by
      intro j
      have := Real.exp_pos (-v a j)
      constructor
      · positivity
      · rw [div_lt_one (by positivity)]; linarith
    have hP : P {ω | ∀ j, (moveSwarm cfg { r with thr := thr ω } iters i s).1.swarm.position a j =
          if bits j then 1 else 0} =
          ENNReal.ofReal (∏ j, if bits j then 1 / (1 + Real.exp (-v a j))
            else 1 - 1 / (1 + Real.exp (-v a j))) := by
      simp only [hmv]
      exact binary_row thr hU v a bits
    refine ⟨hP, ?_⟩
    rw [hP, ENNReal.ofReal_pos]
    refine Finset.prod_pos fun j _ => ?_
    split
    · exact (hσ j).1
    · linarith [(hσ j).2]

theorem combos_eq {K : Type} [Field K] (params : List (String × ParamArray K)) (p : RandVal K)
    (g : ℕ → Combo K) (hg : ∀ i, comboAt params p i = .ok (g i)) (i m : ℕ) :
    combos params p i m = .ok ((List.range m).map fun t => g (i + t)) := by
  induction m generalizing i with
  | zero => rfl
  | succ m ih =>
    rw [combos, hg i, ih (i + 1), List.range_succ_eq_map]
    simp [Function.comp_def, Nat.add_assoc, Nat.add_comm, Nat.add_left_comm]

/-- The names of the three real parameters of the random search. -/
def searchKey (j : Fin 3) : String := ![("c1" : String), "c2", "w"] j

/-- The point of the parameter space given by a combination. -/
def Combo.point (g : Combo ℝ) : Vec 3 ℝ := ![g.c1, g.c2, g.w]

/-- C74: the combinations tried by RandomSearch are independent and uniform in the given ranges: the
probability that none of the `m` combinations is in a given box of the `(c1, c2, w)` space is
`(1 - share)^m`. -/
theorem C74_random_search (m : ℕ) (b : Bounds 3 ℝ) (hb : ProperBounds b) (lo hi : Int)
    (hlt : lo < hi) (p : RandVal ℝ) (r : Ω → SearchDraw ℝ)
    (hU : IidUniform P fun (k : Fin m × Fin 3) ω => (r ω).u (searchKey k.2) k.1)
    (box : Bounds 3 ℝ) (hB : SubBox box b) :
    P {ω | ∃ grid, randomSearchGrid (r ω) m [("c1", .nums [b.1 0, b.2 0]),
        ("c2", .nums [b.1 1, b.2 1]), ("w", .nums [b.1 2, b.2 2]), ("k", .ints [lo, hi]),
        ("p", p)] = .ok grid ∧ ∀ g ∈ grid, ¬ box.Contains g.point} =
      ENNReal.ofReal ((1 - share box b) ^ m) := by
  rw [← hU.miss hb hB]
  congr 1
  ext ω
  have hm : ¬ ((m : Int) < 0) := by omega
  have hk : ¬ (hi ≤ lo) := by omega
  have hgrid : randomSearchGrid (r ω) m [("c1", .nums [b.1 0, b.2 0]),
        ("c2", .nums [b.1 1, b.2 1]), ("w", .nums [b.1 2, b.2 2]), ("k", .ints [lo, hi]),
        ("p", p)] = .ok ((List.range m).map fun t =>
          ⟨b.1 0 + (b.2 0 - b.1 0) * (r ω).u "c1" t, b.1 1 + (b.2 1 - b.1 1) * (r ω).u "c2" t,
            b.1 2 + (b.2 2 - b.1 2) * (r ω).u "w" t, lo + ((r ω).z t : Int) % (hi - lo), p⟩) := by
    unfold randomSearchGrid
    have h1 : [("c1", RandVal.nums [b.1 0, b.2 0]), ("c2", .nums [b.1 1, b.2 1]),
      ("w", .nums [b.1 2, b.2 2]), ("k", .ints [lo, hi]), ("p", p)].lookup "p" = some p := rfl
    rw [h1]
    have h2 : [("c1", RandVal.nums [b.1 0, b.2 0]), ("c2", .nums [b.1 1, b.2 1]),
      ("w", .nums [b.1 2, b.2 2]), ("k", .ints [lo, hi]), ("p", p)].filter (fun o => o.1 ≠ "p") =
      [("c1", RandVal.nums [b.1 0, b.2 0]), ("c2", .nums [b.1 1, b.2 1]),
      ("w", .nums [b.1 2, b.2 2]), ("k", .ints [lo, hi])] := rfl
    rw [h2]
    simp only [genParams, genParam, npUniform, npRandint, hm, hk, if_false, Except.map, true_or,
      or_true, if_true, String.reduceEq, or_self]
    rw [combos_eq _ p (fun t =>
          ⟨b.1 0 + (b.2 0 - b.1 0) * (r ω).u "c1" t, b.1 1 + (b.2 1 - b.1 1) * (r ω).u "c2" t,
            b.1 2 + (b.2 2 - b.1 2) * (r ω).u "w" t, lo + ((r ω).z t : Int) % (hi - lo), p⟩)
      (fun t => rfl)]
    simp
  simp only [Set.mem_setOf_eq, hgrid, Except.ok.injEq, exists_eq_left', List.mem_map,
    List.mem_range, forall_exists_index, and_imp, forall_apply_eq_imp_iff₂]
  constructor
  · intro h t
    have := h t t.2
    intro hc
    apply this
    intro j
    have := hc j
    fin_cases j <;> simpa [Combo.point, searchKey] using this
  · intro h t ht hc
    apply h ⟨t, ht⟩
    intro j
    have := hc j
    fin_cases j <;> simpa [Combo.point, searchKey] using this

/-! ### Non-vacuity -/

/-- Independent uniform random variables exist: the coordinates of the product space. -/
theorem iid_coordinates (ι : Type) :
    IidUniform (Measure.infinitePi fun _ : ι => unitLaw) fun (k : ι) (ω : ι → ℝ) => ω k :=
  ⟨fun k => measurable_pi_apply k, fun k => Measure.infinitePi_map_eval _ k,
    iIndepFun_infinitePi (X := fun _ x => x) fun _ => measurable_id⟩

/-- Ten particles in the square `[-1, 1]²`; the box `[-1/2, 1/2]²` is a quarter of it, and the sphere
function is at most 1/2 there: a run of any length misses cost 1/2 with probability at most
`(3/4)^10`, less than 6 %. -/
example : ∃ (cfg : Config 10 2 ℝ) (b box : Bounds 2 ℝ), DrawsInside cfg b ∧ cfg.kind.isStar ∧
    SubBox box b ∧ share box b = 1 / 4 ∧
    (∀ x : Vec 2 ℝ, box.Contains x → x 0 ^ 2 + x 1 ^ 2 ≤ 1 / 2) ∧ (1 - share box b) ^ 10 < 6 / 100 ∧
    IidUniform (Measure.infinitePi fun _ : Fin 10 × Fin 2 => unitLaw)
      fun (k : Fin 10 × Fin 2) ω =>
        (InitDraw.mk (fun i j => ω (i, j)) (fun _ _ => true) (fun _ j => j) fun i j => ω (i, j)).pos
          k.1 k.2 := by
  have hsh : share (d := 2) (fun _ => -(1 / 2), fun _ => 1 / 2) (fun _ => -1, fun _ => 1) = 1 / 4 := by
    simp [share]; norm_num
  refine ⟨{ kind := .globalBest, options := [("c1", 0.5), ("c2", 0.3), ("w", 0.9)]
            bounds := some (fun _ => -1, fun _ => 1), center := fun _ => 1 },
    (fun _ => -1, fun _ => 1), (fun _ => -(1 / 2), fun _ => 1 / 2), ⟨?_, rfl, ?_, rfl, fun _ => rfl, ?_⟩,
    by simp [Kind.isStar], ?_, hsh, ?_, ?_, iid_coordinates _⟩
  · simp
  · intro j; norm_num
  · exact ⟨⟨fun _ _ => 0, fun _ _ => true, fun _ j => j, fun _ _ => 0⟩,
      ⟨fun _ _ => 0, fun _ _ => true, fun _ j => j, fun _ _ => 1 / 2⟩, _, rfl⟩
  · intro j; norm_num
  · intro x hx
    have h0 := hx 0
    have h1 := hx 1
    simp only at h0 h1
    nlinarith
  · rw [hsh]; norm_num

/-- A particle out of bounds, and samples for the strategy `random`. -/
example : (∃ j, (fun (_ : Fin 1) (_ : Fin 2) => (3 : ℝ)) 0 j < -1 ∨
      1 < (fun (_ : Fin 1) (_ : Fin 2) => (3 : ℝ)) 0 j) ∧
    IidUniform (Measure.infinitePi fun _ : Bool × Fin 2 => unitLaw)
      fun (k : Bool × Fin 2) ω => if k.1
        then (BHDraw.mk (fun j => ω (true, j)) (fun j => ω (false, j)) 0).u k.2
        else (BHDraw.mk (fun j => ω (true, j)) (fun j => ω (false, j)) 0).l k.2 := by
  refine ⟨⟨0, Or.inr (by norm_num)⟩, ?_⟩
  have he : (fun (k : Bool × Fin 2) (ω : Bool × Fin 2 → ℝ) => if k.1
        then (BHDraw.mk (fun j => ω (true, j)) (fun j => ω (false, j)) 0).u k.2
        else (BHDraw.mk (fun j => ω (true, j)) (fun j => ω (false, j)) 0).l k.2) =
      fun k ω => ω k := by
    funext ⟨k, j⟩ ω
    cases k <;> rfl
  rw [he]
  exact iid_coordinates _

/-- A BinaryPSO state that can move. -/
example : ∃ (cfg : Config 2 1 ℝ) (r : Draw 2 1 ℝ) (s : Opt 2 1 ℝ), cfg.kind = .binary ∧
    (moveSwarm cfg r 5 0 s).2 = .ok () :=
  ⟨{ kind := .binary, options := [("c1", 0.5), ("c2", 0.3), ("w", 0.9)], center := fun _ => 1 },
    { r1 := fun _ _ => 0, r2 := fun _ _ => 0, bh := ⟨fun _ => 0, fun _ => 0, 0⟩
      oracle := ⟨fun _ _ _ _ => [], fun _ => .error .valueError, fun _ _ => []⟩
      oh := fun _ => 0, thr := fun _ => 0 },
    { swarm := { mkSwarm (fun _ _ => 0) (fun _ _ => 1) [("c1", 0.5), ("c2", 0.3), ("w", 0.9)] with
        bestPos := .single fun _ => 1 } }, rfl, rfl⟩

/-- A swarm to which `C74_velocity` applies. -/
example : ∃ (s : Swarm 2 1 ℝ) (V : Mat 2 1 ℝ), s.bestPos = .single (fun _ => 1) ∧
    s.options.lookup "c1" = some 0.5 ∧ s.options.lookup "c2" = some 0.3 ∧
    s.options.lookup "w" = some 0.9 ∧
    (computeVelocity s none "unmodified" none none (fun _ _ => 0) (fun _ _ => 0)).2 = .ok V :=
  ⟨{ mkSwarm (fun _ _ => 0) (fun _ _ => 1) [("c1", 0.5), ("c2", 0.3), ("w", 0.9)] with
      bestPos := .single fun _ => 1 }, _, rfl, rfl, rfl, rfl, rfl⟩

/-- Samples for the random search. -/
example : IidUniform (Measure.infinitePi fun _ : Fin 7 × Fin 3 => unitLaw)
    fun (k : Fin 7 × Fin 3) ω => (SearchDraw.mk (fun key i => if h : i < 7 then
      (if key = "c1" then ω (⟨i, h⟩, 0) else if key = "c2" then ω (⟨i, h⟩, 1) else ω (⟨i, h⟩, 2))
      else 0) fun _ => 0).u (searchKey k.2) k.1 := by
  have he : (fun (k : Fin 7 × Fin 3) (ω : Fin 7 × Fin 3 → ℝ) =>
      (SearchDraw.mk (fun key i => if h : i < 7 then
        (if key = "c1" then ω (⟨i, h⟩, 0) else if key = "c2" then ω (⟨i, h⟩, 1) else ω (⟨i, h⟩, 2))
        else 0) fun _ => 0).u (searchKey k.2) k.1) = fun k ω => ω k := by
    funext ⟨i, j⟩ ω
    simp only [i.2, dif_pos]
    fin_cases j <;> simp [searchKey]
  rw [he]
  exact iid_coordinates _

end PySwarms
