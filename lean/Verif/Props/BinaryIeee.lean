import Verif.Lemmas.BinaryIeee
import Verif.Model.RealOps
import Verif.Lemmas.Best
import Verif.Examples
import Mathlib.Analysis.Complex.ExponentialBounds

/-! # C111: BinaryPSO in floating point -/

set_option linter.unusedSectionVars false

namespace PySwarms

variable {n d : Nat} {K : Type} [Field K] [LinearOrder K] [IsStrictOrderedRing K]

/-! ## Specification -/

/-- The states of a BinaryPSO on a machine: constructed, then any sequence of calls, each of which may
have returned or raised; `D` and `I` say what is assumed of the random draws. -/
inductive RunsBx (A : Fpu K) (E : K → XR K) (cfg : Config n d K) (D : Draw n d K → Prop)
    (I : InitDraw n d K → Prop) : OptBx n d K → Prop
  | constructed (r1 r2 : InitDraw n d K) (h2 : I r2) (s : OptBx n d K)
      (h : constructBx A cfg r1 r2 = .ok s) : RunsBx A E cfg D I s
  | optimized (s : OptBx n d K) (hs : RunsBx A E cfg D I s)
      (ev : Nat → Mat n d K → Except Err (Costs n K)) (iters : Nat) (env : Nat → Draw n d K)
      (hd : ∀ i, D (env i)) : RunsBx A E cfg D I (optimizeBx A E cfg ev iters env s).1
  | reset (s : OptBx n d K) (hs : RunsBx A E cfg D I s) (r : InitDraw n d K) (hr : I r) :
      RunsBx A E cfg D I (resetBx A cfg r s).1

/-- The draws of an iteration are samples of NumPy's generator. -/
def Sampled (r : Draw n d ℚ) : Prop :=
  (∀ i j, IsSample (r.r1 i j) ∧ IsSample (r.r2 i j)) ∧ ∀ j, IsSample (r.thr j)

/-- So are those of the initial velocities. -/
def SampledInit (r : InitDraw n d ℚ) : Prop := ∀ i j, IsSample (r.vel i j)

/-- The coefficients `c1` and `c2` are at most `2^20` in size; nothing is asked of `w`. -/
def MildOptions (o : Opts ℚ) : Prop :=
  ∀ x, (o.lookup "c1" = some x ∨ o.lookup "c2" = some x) → |x| ≤ 2 ^ 20

/-- What is used of `np.exp`: within 20 % of the exponential function, except that very small results
may be rounded to anything up to `2^-100` and very large ones may be infinite. -/
structure NpExp (E : ℚ → XR ℚ) : Prop where
  tiny : ∀ x : ℚ, x ≤ -700 → ∃ y, E x = .fin y ∧ 0 ≤ y ∧ y ≤ 1 / 2 ^ 100
  mid : ∀ x : ℚ, -700 < x → x < 700 → ∃ y : ℚ, E x = .fin y ∧
    |(y : ℝ) - Real.exp x| ≤ Real.exp x / 5
  huge : ∀ x : ℚ, 700 ≤ x → E x = .pinf ∨ ∃ y, E x = .fin y ∧ 2 ^ 100 ≤ y

/-! ## Bits -/

theorem goodBx_runs {A : Fpu K} {E : K → XR K} {cfg : Config n d K} {D : Draw n d K → Prop}
    {I : InitDraw n d K → Prop} {V : Fin d → XR K → Prop} (hk : cfg.kind = .binary)
    (hinit : ∀ p, cfg.initPos = some p → Bits p) (hV : KeepsV A cfg V D)
    (hI : ∀ r : InitDraw n d K, I r → ∀ i j, V j (generateVelocityX A cfg.clamp r.vel i j))
    {s : OptBx n d K} (h : RunsBx A E cfg D I s) : GoodBx cfg V s := by
  induction h with
  | constructed r1 r2 h2 s h => exact goodBx_construct hk hinit (hI r2 h2) h
  | optimized s hs ev iters env hd ih => exact goodBx_optimize hV ev iters hd ih
  | reset s hs r hr ih => exact goodBx_reset hk hinit (hI r hr) ih

/-- **C111** (bits).  Whatever the arithmetic does, however `np.exp` errs, and whether velocities
overflow or become `nan`: a BinaryPSO with generated or 0/1 initial positions evaluates, records and
returns zeros and ones only, through any sequence of calls. -/
theorem C111_only_bits (A : Fpu K) (E : K → XR K) (cfg : Config n d K) (hk : cfg.kind = .binary)
    (hinit : ∀ p, cfg.initPos = some p → Bits p) (s : OptBx n d K)
    (h : RunsBx A E cfg (fun _ => True) (fun _ => True) s) :
    (∀ e ∈ s.opt.evals, Bits e.1) ∧ (∀ x ∈ s.opt.posHistory, Bits x) ∧ Bits s.opt.swarm.position ∧
    ∀ ev iters env c p, (optimizeBx A E cfg ev iters env s).2 = .ok (c, p) →
      ∀ j, p j = 0 ∨ p j = 1 := by
  have hV : KeepsV A cfg (fun _ _ => True) (fun _ => True) := fun _ _ _ _ _ _ _ _ _ _ _ _ _ _ _ _ =>
    trivial
  have hg := goodBx_runs hk hinit hV (fun _ _ _ _ => trivial) h
  refine ⟨hg.evals, hg.hist, hg.pos, ?_⟩
  intro ev iters env c p hok
  have hg' := goodBx_optimize (E := E) hV ev iters (env := env) (fun _ => trivial) hg
  revert hok hg'
  generalize hz : optimizeBx A E cfg ev iters env s = z
  obtain ⟨z1, z2⟩ := z
  intro hok hg'
  dsimp only at hg' hok
  subst hok
  obtain ⟨-, k, -, rfl⟩ := optimizeBx_ok hz
  exact hg'.pb k

/-- **C111** (personal bests).  Whatever the arithmetic does, each particle's personal best is the
first smallest of its own evaluations in the call. -/
theorem C111_personal_best [Transc K] [FloorRing K] (A : Fpu K) (E : K → XR K) (cfg : Config n d K)
    (ev : Nat → Mat n d K → Except Err (Costs n K)) (iters : Nat) (env : Nat → Draw n d K)
    (s : OptBx n d K) :
    ∃ L, (optimizeBx A E cfg ev iters env s).1.opt.evals = s.opt.evals ++ L ∧
      ∀ i, IsPersonalBest (particleLog L i) (s.opt.swarm.pbestPos i)
        ((optimizeBx A E cfg ev iters env s).1.opt.swarm.pbestPos i)
        ((optimizeBx A E cfg ev iters env s).1.opt.swarm.pbestCost i) := by
  rw [optimizeBx_state]
  refine loopBx_inv A E cfg ev env
    (fun t => PInv s.opt.evals s.opt.swarm.pbestPos t.opt) ?_ iters 0 [] (prepareBx s)
    ⟨[], by simp [prepareBx], fun i => isPersonalBest_nil _⟩
  intro i q t ht
  refine iterateBx_inv A E cfg (ev i) (env i) i q
    (fun t => PInv s.opt.evals s.opt.swarm.pbestPos t.opt) ?_ ?_ ?_ ?_ t ht
  · intro t c h _; exact pInv_recordEval h c
  · intro t tp h; exact pInv_congr h rfl rfl rfl
  · intro t tp g h _; exact pInv_congr h rfl rfl rfl
  · intro t h
    unfold moveBx
    generalize computeVelocityBx A t.opt.swarm t.velocity cfg.clamp cfg.vhStrategy t.vhMem _ _ = z
    obtain ⟨z1, z2⟩ := z
    cases z2 with
    | error e => exact h
    | ok v => exact pInv_congr h rfl rfl rfl

/-! ## Velocities are never `nan` -/

/-- Not `nan`, and a number of moderate size where the inertia is zero. -/
def SoundVel (w : Option ℚ) (x : XR ℚ) : Prop :=
  x ≠ .nan ∧ (w = some 0 → ∃ y, x = .fin y)

theorem clampOptX_sound {w : Option ℚ} {c : Option (Clamp d ℚ)} {v : Mat n d (XR ℚ)}
    (h : ∀ i j, SoundVel w (v i j)) (i : Fin n) (j : Fin d) : SoundVel w (clampOptX c v i j) := by
  cases c with
  | none => exact h i j
  | some c =>
    simp only [clampOptX, applyClampX]
    split_ifs
    · exact ⟨by simp, fun _ => ⟨_, rfl⟩⟩
    · exact ⟨by simp, fun _ => ⟨_, rfl⟩⟩
    · exact h i j

theorem tempVelocityBx_sound {s : Swarm n d ℚ} {v : Mat n d (XR ℚ)} {c1 c2 w : ℚ} {r1 r2 : Mat n d ℚ}
    (hc1 : |c1| ≤ 2 ^ 20) (hc2 : |c2| ≤ 2 ^ 20)
    (hr : ∀ i j, IsSample (r1 i j) ∧ IsSample (r2 i j)) (h1 : Bits s.position)
    (h2 : Bits s.pbestPos) (h3 : BestBits s.bestPos) (i : Fin n) (j : Fin d) :
    ∃ y z, tempVelocityBx fpu64 c1 c2 w r1 r2 s v i j =
        fpu64.add (fpu64.add (fpu64.mul (.fin w) (v i j)) (.fin y)) (.fin z) ∧
      |y| ≤ 2 ^ 21 ∧ |z| ≤ 2 ^ 21 := by
  obtain ⟨y, hy, hy'⟩ := attraction_bits hc1 (hr i j).1 (h2 i j) (h1 i j)
  obtain ⟨z, hz, hz'⟩ := attraction_bits hc2 (hr i j).2 (h3.row h1 i j) (h1 i j)
  exact ⟨y, z, by simp only [tempVelocityBx, hy, hz], hy', hz'⟩

theorem soundVel_sum {w y z : ℚ} {v : XR ℚ} (hv : SoundVel (some w) v) (hy : |y| ≤ 2 ^ 21)
    (hz : |z| ≤ 2 ^ 21) :
    SoundVel (some w) (fpu64.add (fpu64.add (fpu64.mul (.fin w) v) (.fin y)) (.fin z)) := by
  by_cases hw : w = 0
  · subst hw
    obtain ⟨u, rfl⟩ := hv.2 rfl
    rw [Fpu.mul_fin, zero_mul, rnd_zero, Fpu.add_fin, zero_add]
    obtain ⟨h1, h2⟩ := rnd_small (by norm_num) hy
    obtain ⟨h3, -⟩ := rnd_small (k := 22) (by norm_num) (add_pow_le h2 hz).1
    rw [h1, Fpu.add_fin, h3]
    exact ⟨by simp, fun _ => ⟨_, rfl⟩⟩
  · refine ⟨?_, fun h => absurd (Option.some.inj h) hw⟩
    exact fpu64_lawful.add_fin_ne_nan (fpu64_lawful.add_fin_ne_nan
      (fpu64_lawful.mul_ne_nan hv.1 hw) y) z

theorem keeps_sound {cfg : Config n d ℚ} (ho : MildOptions cfg.options) :
    KeepsV fpu64 cfg (fun _ => SoundVel (cfg.options.lookup "w")) Sampled := by
  intro r hr s v v' mem vm h1 h2 h3 h4 h5 h6 hok i j
  obtain ⟨c1, c2, w, e1, e2, e3, hcall⟩ := computeVelocityBx_ok hok
  rw [h4] at e1 e2 e3
  have hv : ∀ i j, SoundVel (some w) (v i j) := fun i j => by have := h6 i j; rwa [e3] at this
  have ht : ∀ i j, SoundVel (some w) (tempVelocityBx fpu64 c1 c2 w r.r1 r.r2 s v i j) := by
    intro i j
    obtain ⟨y, z, he, hy, hz⟩ := tempVelocityBx_sound (ho c1 (.inl e1)) (ho c2 (.inr e2)) hr.1 h1 h2
      h3 i j
    rw [he]
    exact soundVel_sum (hv i j) hy hz
  rw [e3]
  unfold vhCallX at hcall
  split_ifs at hcall
  · cases hcall
    exact clampOptX_sound ht i j
  · cases hcall
    unfold vhAdjustX
    cases mem with
    | none => exact ht i j
    | some m =>
      obtain ⟨b, hb, rfl⟩ := h5 m rfl
      refine clampOptX_sound (fun i j => ?_) i j
      dsimp only [up]
      rw [Fpu.sub_fin]
      obtain ⟨h7, -⟩ := rnd_small (x := s.position i j - b i j) (k := 1) (by norm_num) (by
        obtain ⟨p, q⟩ := bit_range (h1 i j)
        obtain ⟨p', q'⟩ := bit_range (hb i j)
        rw [abs_le]
        constructor <;> norm_num <;> linarith)
      rw [h7]
      exact ⟨by simp, fun _ => ⟨_, rfl⟩⟩
  · simp only [vhInvertX] at hcall
    cases (Prod.mk.inj hcall).2
  · simp only [vhZeroX] at hcall
    cases (Prod.mk.inj hcall).2
  · cases (Prod.mk.inj hcall).2

theorem init_sound {cfg : Config n d ℚ} (hcl : ModerateClamp cfg.clamp) (w : Option ℚ)
    (r : InitDraw n d ℚ) (hr : SampledInit r) (i : Fin n) (j : Fin d) :
    SoundVel w (generateVelocityX fpu64 cfg.clamp r.vel i j) := by
  obtain ⟨y, hy, -⟩ := initVelocityX hcl (hr i j) j
  have he : generateVelocityX fpu64 cfg.clamp r.vel i j = .fin y := hy
  rw [he]
  exact ⟨by simp, fun _ => ⟨_, rfl⟩⟩

/-- **C111** (never `nan`).  In float64, with `c1` and `c2` of moderate size, any inertia and any
clamp of moderate size: the velocities of a BinaryPSO may become infinite but are never `nan`,
neither in the swarm nor in `velocity_history`. -/
theorem C111_never_nan (E : ℚ → XR ℚ) (cfg : Config n d ℚ) (hk : cfg.kind = .binary)
    (hinit : ∀ p, cfg.initPos = some p → Bits p) (ho : MildOptions cfg.options)
    (hcl : ModerateClamp cfg.clamp) (s : OptBx n d ℚ)
    (h : RunsBx fpu64 E cfg Sampled SampledInit s) :
    NanFree s.velocity ∧ ∀ v ∈ s.velocityHistory, NanFree v := by
  have hg := goodBx_runs hk hinit (keeps_sound ho)
    (fun r hr => init_sound hcl (cfg.options.lookup "w") r hr) h
  exact ⟨fun i j => (hg.vel i j).1, fun v hv i j => (hg.vhist v hv i j).1⟩

/-! ## Velocities in the clamp -/

theorem applyClampX_inside {c : Clamp d ℚ} (hc : ∀ j, c.1 j ≤ c.2 j) {v : Mat n d (XR ℚ)}
    (i : Fin n) (j : Fin d) (hv : v i j ≠ .nan) :
    ∃ y, applyClampX c v i j = .fin y ∧ c.1 j ≤ y ∧ y ≤ c.2 j := by
  unfold applyClampX
  dsimp only
  have h := hc j
  cases hx : v i j with
  | nan => exact absurd hx hv
  | pinf => exact ⟨c.2 j, by simp [XR.le, XR.lt, XR.isNan], h, le_rfl⟩
  | ninf => exact ⟨c.1 j, by simp [XR.le, XR.lt, XR.isNan], le_rfl, h⟩
  | fin x =>
    by_cases h2 : c.2 j ≤ x
    · exact ⟨c.2 j, by simp [XR.le, XR.lt, XR.isNan, h2], h, le_rfl⟩
    · by_cases h1 : x ≤ c.1 j
      · exact ⟨c.1 j, by simp [XR.le, XR.lt, XR.isNan, h1, not_le.1 h2], le_rfl, h⟩
      · exact ⟨x, by simp [XR.le, XR.lt, XR.isNan, not_le.1 h1, not_le.1 h2], (not_le.1 h1).le,
          (not_le.1 h2).le⟩

theorem keeps_clamp {cfg : Config n d ℚ} (ho : MildOptions cfg.options) (c : Clamp d ℚ)
    (hc : cfg.clamp = some c) (hle : ∀ j, c.1 j ≤ c.2 j) (hvh : cfg.vhStrategy = "unmodified") :
    KeepsV fpu64 cfg (fun j x => ∃ y, x = .fin y ∧ c.1 j ≤ y ∧ y ≤ c.2 j) Sampled := by
  intro r hr s v v' mem vm h1 h2 h3 h4 h5 h6 hok i j
  obtain ⟨c1, c2, w, e1, e2, e3, hcall⟩ := computeVelocityBx_ok hok
  rw [h4] at e1 e2 e3
  rw [hvh, hc] at hcall
  simp only [vhCallX, if_true] at hcall
  cases hcall
  refine applyClampX_inside hle i j ?_
  obtain ⟨y, z, he, hy, hz⟩ := tempVelocityBx_sound (v := v) (w := w) (ho c1 (.inl e1))
    (ho c2 (.inr e2)) hr.1 h1 h2 h3 i j
  rw [he]
  obtain ⟨x, hx, -⟩ := h6 i j
  rw [hx]
  exact fpu64_lawful.add_fin_ne_nan (fpu64_lawful.add_fin_ne_nan
    (by rw [Fpu.mul_fin]; exact fpu64_lawful.notNan _) y) z

theorem init_clamp {cfg : Config n d ℚ} (c : Clamp d ℚ) (hc : cfg.clamp = some c)
    (hle : ∀ j, c.1 j ≤ c.2 j) (hd : ∀ j, IsDouble (c.1 j) ∧ IsDouble (c.2 j))
    (hcl : ModerateClamp cfg.clamp) (r : InitDraw n d ℚ) (hr : SampledInit r) (i : Fin n)
    (j : Fin d) : ∃ y, generateVelocityX fpu64 cfg.clamp r.vel i j = .fin y ∧ c.1 j ≤ y ∧
      y ≤ c.2 j := by
  have h := C67_created_velocity c hle hd r.vel hr i j
  obtain ⟨h1, h2⟩ := moderate_getD hcl j
  obtain ⟨h3, h4⟩ := rnd_small (k := 1001) (by norm_num) (add_pow_le h2 h1).2
  obtain ⟨h5, h6⟩ := rnd_small (k := 1001) (by norm_num) (abs_mul_sample h4 (hr i j))
  have h1' := h1.trans (pow_le_pow_right₀ (by norm_num : (1 : ℚ) ≤ 2) (by norm_num : 1000 ≤ 1001))
  obtain ⟨h7, h8⟩ := rnd_small (k := 1002) (by norm_num) (add_pow_le h6 h1').1
  have he : generateVelocityX fpu64 cfg.clamp r.vel i j =
      .fin (generateVelocityR f64 c r.vel i j) := by
    rw [hc] at h3 h5 h7
    simp only [generateVelocityX, hc]
    rw [Fpu.sub_fin, h3, Fpu.mul_fin, h5, Fpu.add_fin, h7]
    rfl
  exact ⟨_, he, h⟩

/-- **C111** (clamp).  In float64, with a clamp of doubles of moderate size in the right order and the
default velocity strategy: all velocities, the recorded ones included, are numbers inside the clamp,
even where the inertia is so large that the unclamped velocity overflows. -/
theorem C111_clamped (E : ℚ → XR ℚ) (cfg : Config n d ℚ) (hk : cfg.kind = .binary)
    (hinit : ∀ p, cfg.initPos = some p → Bits p) (ho : MildOptions cfg.options) (c : Clamp d ℚ)
    (hc : cfg.clamp = some c) (hle : ∀ j, c.1 j ≤ c.2 j)
    (hd : ∀ j, IsDouble (c.1 j) ∧ IsDouble (c.2 j)) (hcl : ModerateClamp cfg.clamp)
    (hvh : cfg.vhStrategy = "unmodified") (s : OptBx n d ℚ)
    (h : RunsBx fpu64 E cfg Sampled SampledInit s) :
    (∀ i j, ∃ y, s.velocity i j = .fin y ∧ c.1 j ≤ y ∧ y ≤ c.2 j) ∧
    ∀ v ∈ s.velocityHistory, ∀ i j, ∃ y, v i j = .fin y ∧ c.1 j ≤ y ∧ y ≤ c.2 j := by
  have hg := goodBx_runs hk hinit (keeps_clamp ho c hc hle hvh)
    (fun r hr => init_clamp c hc hle hd hcl r hr) h
  exact ⟨hg.vel, hg.vhist⟩

/-! ## Infinite velocities freeze the bit -/

theorem rnd_one : fpu64.rnd 1 = .fin 1 := by
  have h := (rnd_small (x := 1) (k := 0) (by norm_num) (by norm_num)).1
  have h1 : f64 1 = 1 := by decide +kernel
  rwa [h1] at h

theorem sigmoidX_pinf (E : ℚ → XR ℚ) : sigmoidX fpu64 E .pinf = .fin 1 := by
  show fpu64.div (.fin 1) (fpu64.add (.fin 1) (.fin 0)) = .fin 1
  rw [Fpu.add_fin, add_zero, rnd_one]
  simp only [Fpu.div, XR.div, if_neg (one_ne_zero : (1 : ℚ) ≠ 0), div_one]
  exact rnd_one

theorem sigmoidX_ninf (E : ℚ → XR ℚ) : sigmoidX fpu64 E .ninf = .fin 0 := rnd_zero

/-- The bit that belongs to an infinite velocity. -/
def Settled (v : XR ℚ) (b : ℚ) : Prop := (v = .pinf → b = 1) ∧ (v = .ninf → b = 0)

theorem isSample_lt_one {u : ℚ} (h : IsSample u) : u < 1 := by
  obtain ⟨k, hk, rfl⟩ := h
  rw [div_lt_one (by positivity)]
  exact_mod_cast hk

theorem binaryPositionX_settled (E : ℚ → XR ℚ) {thr : Vec d ℚ} (ht : ∀ j, IsSample (thr j))
    (v : Mat n d (XR ℚ)) (i : Fin n) (j : Fin d) :
    Settled (v i j) (binaryPositionX fpu64 E thr v i j) := by
  unfold binaryPositionX
  constructor
  · intro h
    rw [h, sigmoidX_pinf]
    simp [XR.lt, isSample_lt_one (ht j)]
  · intro h
    rw [h, sigmoidX_ninf]
    simp [XR.lt, (isSample_range (ht j)).1]

theorem settled_move {E : ℚ → XR ℚ} {cfg : Config n d ℚ} {r : Draw n d ℚ} (hr : Sampled r)
    {s : OptBx n d ℚ} (h : ∀ i j, Settled (s.velocity i j) (s.opt.swarm.position i j)) :
    ∀ i j, Settled ((moveBx fpu64 E cfg r s).1.velocity i j)
      ((moveBx fpu64 E cfg r s).1.opt.swarm.position i j) := by
  unfold moveBx
  generalize computeVelocityBx fpu64 s.opt.swarm s.velocity cfg.clamp cfg.vhStrategy s.vhMem _ _ = z
  obtain ⟨z1, z2⟩ := z
  cases z2 with
  | error e => exact h
  | ok v => exact binaryPositionX_settled E hr.2 v

theorem settled_runs {E : ℚ → XR ℚ} {cfg : Config n d ℚ} (hcl : ModerateClamp cfg.clamp)
    {s : OptBx n d ℚ} (h : RunsBx fpu64 E cfg Sampled SampledInit s) :
    ∀ i j, Settled (s.velocity i j) (s.opt.swarm.position i j) := by
  have hfin : ∀ r : InitDraw n d ℚ, SampledInit r → ∀ i j (b : ℚ),
      Settled (generateVelocityX fpu64 cfg.clamp r.vel i j) b := by
    intro r hr i j b
    obtain ⟨y, hy⟩ := (init_sound hcl (some 0) r hr i j).2 rfl
    rw [hy]
    exact ⟨by simp, by simp⟩
  induction h with
  | constructed r1 r2 h2 s h =>
    unfold constructBx at h
    split at h
    · cases h
    · cases h
      exact fun i j => hfin r2 h2 i j _
  | optimized s hs ev iters env hd ih =>
    refine optimizeBx_inv fpu64 E cfg ev iters env
      (fun s => ∀ i j, Settled (s.velocity i j) (s.opt.swarm.position i j)) (fun s h => h) ?_ s ih
    intro i q s hs
    exact iterateBx_inv fpu64 E cfg (ev i) (env i) i q
      (fun s => ∀ i j, Settled (s.velocity i j) (s.opt.swarm.position i j))
      (fun s c h _ => h) (fun s t h => h) (fun s t g h _ => h)
      (fun s h => settled_move (hd i) h) s hs
  | reset s hs r hr ih =>
    unfold resetBx reset
    cases hsw : resetSwarm cfg r with
    | error e => exact ih
    | ok sw => exact fun i j => hfin r hr i j _

/-- `w * ±inf + number + number` for a positive `w`. -/
theorem infinite_stays {w y z : ℚ} (hw : 0 < w) {v : XR ℚ} (hv : v = .pinf ∨ v = .ninf) :
    fpu64.add (fpu64.add (fpu64.mul (.fin w) v) (.fin y)) (.fin z) = v := by
  have hw' : ¬ w < 0 := not_lt.2 hw.le
  rcases hv with rfl | rfl
  · simp [Fpu.add, Fpu.mul, XR.mul, XR.infTimes, hw, Fpu.round, XR.add]
  · simp [Fpu.add, Fpu.mul, XR.mul, XR.infTimes, hw, Fpu.round, XR.add]

/-- A call of `optimize` with samples. -/
structure SampledCall (n d : Nat) where
  ev : Nat → Mat n d ℚ → Except Err (Costs n ℚ)
  iters : Nat
  env : Nat → Draw n d ℚ
  sampled : ∀ i, Sampled (env i)

/-- Any number of further calls of `optimize`, without `reset`. -/
def runSampled (E : ℚ → XR ℚ) (cfg : Config n d ℚ) (s : OptBx n d ℚ) (calls : List (SampledCall n d)) :
    OptBx n d ℚ :=
  calls.foldl (fun s c => (optimizeBx fpu64 E cfg c.ev c.iters c.env s).1) s

/-- **C111** (frozen bits).  In float64 without a clamp and with a positive inertia: once the velocity
of a particle in some dimension has overflowed, its bit there is 1 (after `+inf`) or 0 (after
`-inf`), and it stays so in all further evaluations, however many calls of `optimize` follow, until
`reset`; whatever the personal and neighbourhood bests are. -/
theorem C111_frozen (E : ℚ → XR ℚ) (cfg : Config n d ℚ) (hk : cfg.kind = .binary)
    (hinit : ∀ p, cfg.initPos = some p → Bits p) (ho : MildOptions cfg.options)
    (w : ℚ) (hw : cfg.options.lookup "w" = some w) (hpos : 0 < w) (hcl : cfg.clamp = none)
    (hvh : cfg.vhStrategy = "unmodified") (s : OptBx n d ℚ)
    (h : RunsBx fpu64 E cfg Sampled SampledInit s) (i : Fin n) (j : Fin d) (v : XR ℚ) (b : ℚ)
    (hvb : (v = .pinf ∧ b = 1) ∨ (v = .ninf ∧ b = 0)) (hv : s.velocity i j = v)
    (calls : List (SampledCall n d)) :
    s.opt.swarm.position i j = b ∧
    (runSampled E cfg s calls).velocity i j = v ∧
    (runSampled E cfg s calls).opt.swarm.position i j = b ∧
    ∃ L, (runSampled E cfg s calls).opt.evals = s.opt.evals ++ L ∧ ∀ e ∈ L, e.1 i j = b := by
  have hmod : ModerateClamp cfg.clamp := by intro c hc; rw [hcl] at hc; cases hc
  have hset := settled_runs hmod h i j
  have hg := goodBx_runs hk hinit (keeps_sound ho)
    (fun r hr => init_sound hmod (cfg.options.lookup "w") r hr) h
  have hb : s.opt.swarm.position i j = b := by
    rcases hvb with ⟨rfl, rfl⟩ | ⟨rfl, rfl⟩
    · exact hset.1 hv
    · exact hset.2 hv
  refine ⟨hb, ?_⟩
  let F : OptBx n d ℚ → Prop := fun t =>
    GoodBx cfg (fun _ => SoundVel (cfg.options.lookup "w")) t ∧ t.velocity i j = v ∧
      t.opt.swarm.position i j = b ∧
      ∃ L, t.opt.evals = s.opt.evals ++ L ∧ ∀ e ∈ L, e.1 i j = b
  have step : ∀ (r : Draw n d ℚ), Sampled r → ∀ t, F t → F (moveBx fpu64 E cfg r t).1 := by
    rintro r hr t ⟨g, g1, g2, g3⟩
    refine ⟨goodBx_move (keeps_sound ho) hr g, ?_⟩
    unfold moveBx
    cases hc : computeVelocityBx fpu64 t.opt.swarm t.velocity cfg.clamp cfg.vhStrategy t.vhMem r.r1
      r.r2 with
    | mk vm y =>
      cases y with
      | error e => exact ⟨g1, g2, g3⟩
      | ok v' =>
        obtain ⟨c1, c2, w', e1, e2, e3, hcall⟩ := computeVelocityBx_ok hc
        rw [g.opts] at e1 e2 e3
        have hww : w' = w := by rw [hw] at e3; exact (Option.some.inj e3).symm
        subst hww
        rw [hvh, hcl] at hcall
        simp only [vhCallX, if_true] at hcall
        cases hcall
        obtain ⟨y, z, he, -, -⟩ := tempVelocityBx_sound (v := t.velocity) (w := w')
          (ho c1 (.inl e1)) (ho c2 (.inr e2)) hr.1 g.pos g.pb g.best i j
        have hv' : tempVelocityBx fpu64 c1 c2 w' r.r1 r.r2 t.opt.swarm t.velocity i j = v := by
          rw [he, g1]
          refine infinite_stays hpos ?_
          rcases hvb with ⟨h, -⟩ | ⟨h, -⟩
          · exact .inl h
          · exact .inr h
        refine ⟨hv', ?_, g3⟩
        have := binaryPositionX_settled E hr.2
          (tempVelocityBx fpu64 c1 c2 w' r.r1 r.r2 t.opt.swarm t.velocity) i j
        rw [hv'] at this
        rcases hvb with ⟨rfl, rfl⟩ | ⟨rfl, rfl⟩
        · exact this.1 rfl
        · exact this.2 rfl
  have call : ∀ (c : SampledCall n d) t, F t → F (optimizeBx fpu64 E cfg c.ev c.iters c.env t).1 := by
    intro c t ht
    refine optimizeBx_inv fpu64 E cfg c.ev c.iters c.env F ?_ ?_ t ht
    · rintro t ⟨⟨h1, h2, h3, h4, h5, h6, h7, h8, h9⟩, g1, g2, g3⟩
      refine ⟨⟨h1, h2, h3, h4, h5, h6, ?_, h8, h9⟩, g1, g2, g3⟩
      intro m hm
      cases hm
      exact ⟨_, h1, rfl⟩
    · intro k q t ht
      refine ⟨goodBx_iterate (keeps_sound ho) (c.ev k) (c.sampled k) k q ht.1, ?_⟩
      refine (iterateBx_inv fpu64 E cfg (c.ev k) (c.env k) k q F ?_ ?_ ?_
        (fun t h => step _ (c.sampled k) t h) t ht).2
      · rintro t c' ⟨g, g1, g2, L, g3, g4⟩ hev
        have g' := goodBx_record (V := fun _ => SoundVel (cfg.options.lookup "w")) c' g
        refine ⟨g', g1, g2, L ++ [(t.opt.swarm.position, c')], ?_, ?_⟩
        · show t.opt.evals ++ _ = _
          rw [g3, List.append_assoc]
        · intro e he
          rcases List.mem_append.1 he with he | he
          · exact g4 e he
          · rw [List.mem_singleton] at he
            subst he
            exact g2
      · rintro t tp ⟨⟨h1, h2, h3, h4, h5, h6, h7, h8, h9⟩, g1, g2, g3⟩
        exact ⟨⟨h1, h2, h3, h4, h5, h6, h7, h8, h9⟩, g1, g2, g3⟩
      · rintro t tp g' ⟨g, g1, g2, g3⟩ hg'
        exact ⟨goodBx_best tp g hg', g1, g2, g3⟩
  have key : F s := ⟨hg, hv, hb, [], by simp, by simp⟩
  have all : ∀ (calls : List (SampledCall n d)) t, F t → F (runSampled E cfg t calls) := by
    intro calls
    induction calls with
    | nil => exact fun t h => h
    | cons c l ih => exact fun t h => ih _ (call c t h)
  exact (all calls s key).2

/-! ## Saturation at finite velocities -/

theorem exp_margin : (6 / 5 : ℝ) * 2 ^ 53 ≤ Real.exp 37 := by
  have h1 : (2.718 : ℝ) ≤ Real.exp 1 := le_trans (by norm_num) Real.exp_one_gt_d9.le
  have h2 : Real.exp 37 = Real.exp 1 ^ 37 := by rw [← Real.exp_nat_mul]; norm_num
  rw [h2]
  refine le_trans ?_ (pow_le_pow_left₀ (by norm_num) h1 37)
  norm_num

theorem exp_margin' : (5 / 4 : ℝ) * 2 ^ 53 ≤ Real.exp 37 := by
  have h1 : (2.718 : ℝ) ≤ Real.exp 1 := le_trans (by norm_num) Real.exp_one_gt_d9.le
  have h2 : Real.exp 37 = Real.exp 1 ^ 37 := by rw [← Real.exp_nat_mul]; norm_num
  rw [h2]
  refine le_trans ?_ (pow_le_pow_left₀ (by norm_num) h1 37)
  norm_num

theorem npExp_low {E : ℚ → XR ℚ} (hE : NpExp E) {x : ℚ} (hx : x ≤ -37) :
    ∃ y, E x = .fin y ∧ 0 ≤ y ∧ y ≤ 1 / 2 ^ 53 := by
  by_cases h : x ≤ -700
  · obtain ⟨y, h1, h2, h3⟩ := hE.tiny x h
    exact ⟨y, h1, h2, h3.trans (by norm_num)⟩
  · obtain ⟨y, h1, h2⟩ := hE.mid x (not_le.1 h) (by linarith)
    have hx' : (x : ℝ) ≤ -37 := by exact_mod_cast hx
    have h3 : Real.exp x ≤ (Real.exp 37)⁻¹ := by
      rw [← Real.exp_neg]; exact Real.exp_le_exp.2 hx'
    have h4 : (Real.exp 37)⁻¹ ≤ ((6 / 5 : ℝ) * 2 ^ 53)⁻¹ :=
      inv_anti₀ (by norm_num) exp_margin
    have h5 := Real.exp_pos (x : ℝ)
    have h6 := abs_le.1 h2
    refine ⟨y, h1, ?_, ?_⟩
    · have : (0 : ℝ) ≤ y := by linarith [h6.1]
      exact_mod_cast this
    · have h7 : (6 / 5 : ℝ) * ((6 / 5 : ℝ) * 2 ^ 53)⁻¹ = 1 / 2 ^ 53 := by norm_num
      have : (y : ℝ) ≤ 1 / 2 ^ 53 := by
        rw [← h7]
        linarith [h6.2]
      have h8 : (y : ℝ) ≤ ((1 / 2 ^ 53 : ℚ) : ℝ) := by push_cast; exact this
      exact_mod_cast h8

theorem npExp_high {E : ℚ → XR ℚ} (hE : NpExp E) {x : ℚ} (hx : 37 ≤ x) :
    E x = .pinf ∨ ∃ y, E x = .fin y ∧ 2 ^ 53 ≤ y := by
  by_cases h : 700 ≤ x
  · rcases hE.huge x h with h1 | ⟨y, h1, h2⟩
    · exact .inl h1
    · exact .inr ⟨y, h1, le_trans (by norm_num) h2⟩
  · obtain ⟨y, h1, h2⟩ := hE.mid x (by linarith) (not_le.1 h)
    have hx' : (37 : ℝ) ≤ x := by exact_mod_cast hx
    have h3 : Real.exp 37 ≤ Real.exp x := Real.exp_le_exp.2 hx'
    have h6 := abs_le.1 h2
    have h4 := exp_margin'
    refine .inr ⟨y, h1, ?_⟩
    have : ((2 ^ 53 : ℚ) : ℝ) ≤ y := by push_cast; linarith [h6.1]
    exact_mod_cast this

theorem sigmoidX_high {E : ℚ → XR ℚ} (hE : NpExp E) {x : ℚ} (hx : 37 ≤ x) :
    sigmoidX fpu64 E (.fin x) = .fin 1 := by
  obtain ⟨y, h1, h2, h3⟩ := npExp_low hE (x := -x) (by linarith)
  have hf : f64 (1 + y) = 1 := by
    have ha : f64 1 = 1 := by decide +kernel
    have hb : f64 (1 + 1 / 2 ^ 53) = 1 := by decide +kernel
    have hc := f64_mono (show (1 : ℚ) ≤ 1 + y by linarith)
    have hd := f64_mono (show 1 + y ≤ 1 + 1 / 2 ^ 53 by linarith)
    rw [ha] at hc
    rw [hb] at hd
    exact le_antisymm hd hc
  have hr : fpu64.rnd (1 + y) = .fin 1 := by
    have := (rnd_small (x := 1 + y) (k := 1) (by norm_num) (by
      rw [abs_of_nonneg (by linarith)]
      have : (1 : ℚ) / 2 ^ 53 ≤ 1 := by norm_num
      linarith)).1
    rwa [hf] at this
  show fpu64.div (.fin 1) (fpu64.add (.fin 1) (E (-x))) = .fin 1
  rw [h1, Fpu.add_fin, hr]
  simp only [Fpu.div, XR.div, if_neg (one_ne_zero : (1 : ℚ) ≠ 0), div_one]
  exact rnd_one

theorem sigmoidX_low {E : ℚ → XR ℚ} (hE : NpExp E) {x : ℚ} (hx : x ≤ -37) :
    ∃ t, sigmoidX fpu64 E (.fin x) = .fin t ∧ t ≤ 1 / 2 ^ 53 := by
  have hz : ∃ t, fpu64.rnd 0 = .fin t ∧ t ≤ 1 / 2 ^ 53 := ⟨0, rnd_zero, by norm_num⟩
  show ∃ t, fpu64.div (.fin 1) (fpu64.add (.fin 1) (E (-x))) = .fin t ∧ t ≤ 1 / 2 ^ 53
  rcases npExp_high hE (x := -x) (by linarith) with h | ⟨y, h, hy⟩
  · rw [h]
    exact hz
  · rw [h, Fpu.add_fin]
    have h53 : f64 (2 ^ 53) = 2 ^ 53 := f64_of_isDouble (isDouble_pow 53)
    have hm : (2 : ℚ) ^ 53 ≤ f64 (1 + y) := by
      have := f64_mono (show (2 : ℚ) ^ 53 ≤ 1 + y by linarith)
      rwa [h53] at this
    rcases rnd_cases (1 + y) with ⟨h1, -⟩ | h1 | h1
    · rw [h1]
      exact hz
    · have hp : (0 : ℚ) < 2 ^ 53 := by norm_num
      linarith [h1.2]
    · have hp : (0 : ℚ) < 2 ^ 53 := by norm_num
      have hne : f64 (1 + y) ≠ 0 := by linarith
      rw [h1]
      simp only [Fpu.div, XR.div, if_neg hne]
      have hle : 1 / f64 (1 + y) ≤ 1 / 2 ^ 53 := one_div_le_one_div_of_le hp hm
      have hge : 0 ≤ 1 / f64 (1 + y) := by
        apply div_nonneg zero_le_one
        linarith
      have hd : f64 (1 / 2 ^ 53) = 1 / 2 ^ 53 := by decide +kernel
      refine ⟨f64 (1 / f64 (1 + y)), (rnd_small (k := 0) (by norm_num) ?_).1, ?_⟩
      · rw [abs_of_nonneg hge]
        exact hle.trans (by norm_num)
      · have := f64_mono hle
        rwa [hd] at this

/-- The velocity is at least 37. -/
def AtLeast37 : XR ℚ → Prop
  | .fin x => 37 ≤ x
  | .pinf => True
  | _ => False

/-- The velocity is at most -37. -/
def AtMost37 : XR ℚ → Prop
  | .fin x => x ≤ -37
  | .ninf => True
  | _ => False

/-- What a velocity `v` and the number `u` drawn for its dimension say about the bit `b`: from 37 on
the bit is 1 whatever was drawn; down from -37 it is 0 unless the number drawn was exactly zero. -/
def BitOf (u : ℚ) (v : XR ℚ) (b : ℚ) : Prop :=
  (AtLeast37 v → b = 1) ∧ (AtMost37 v → u ≠ 0 → b = 0)

theorem saturated_move {E : ℚ → XR ℚ} (hE : NpExp E) (cfg : Config n d ℚ) {r : Draw n d ℚ}
    (hr : Sampled r) {s s' : OptBx n d ℚ} (h : moveBx fpu64 E cfg r s = (s', .ok ())) (i : Fin n)
    (j : Fin d) : BitOf (r.thr j) (s'.velocity i j) (s'.opt.swarm.position i j) := by
  unfold BitOf
  unfold moveBx at h
  revert h
  generalize computeVelocityBx fpu64 s.opt.swarm s.velocity cfg.clamp cfg.vhStrategy s.vhMem _ _ = z
  obtain ⟨z1, z2⟩ := z
  intro h
  cases z2 with
  | error e => cases (Prod.mk.inj h).2
  | ok v =>
    cases h
    dsimp only
    have hset := binaryPositionX_settled E hr.2 v i j
    cases hv : v i j with
    | nan => exact ⟨fun h => h.elim, fun h => h.elim⟩
    | pinf => exact ⟨fun _ => hset.1 hv, fun h => h.elim⟩
    | ninf => exact ⟨fun h => h.elim, fun _ _ => hset.2 hv⟩
    | fin x =>
      unfold binaryPositionX
      rw [hv]
      constructor
      · intro hx
        rw [sigmoidX_high hE hx]
        simp [XR.lt, isSample_lt_one (hr.2 j)]
      · intro hx h0
        obtain ⟨t, ht, hle⟩ := sigmoidX_low hE hx
        rw [ht]
        have hlt : ¬ r.thr j < t := by
          intro hlt
          obtain ⟨k, hk, he⟩ := hr.2 j
          rw [he] at hlt
          have h1 : (k : ℚ) / 2 ^ 53 < 1 / 2 ^ 53 := hlt.trans_le hle
          rw [div_lt_div_iff_of_pos_right (by norm_num)] at h1
          have h2 : k = 0 := by
            have : k < 1 := by exact_mod_cast h1
            omega
          rw [h2] at he
          exact h0 (by rw [he]; simp)
        simp [XR.lt, hlt]

/-- The entries recorded from the second iteration on obey `BitOf`. -/
def SatHist (L0 : Nat) (env : Nat → Draw n d ℚ) (t : OptBx n d ℚ) : Prop :=
  ∀ m v p, t.velocityHistory[L0 + m + 1]? = some v → t.opt.posHistory[L0 + m + 1]? = some p →
    ∀ i j, BitOf ((env m).thr j) (v i j) (p i j)

theorem moveBx_history (A : Fpu K) (E : K → XR K) (cfg : Config n d K) (r : Draw n d K)
    (s : OptBx n d K) : (moveBx A E cfg r s).1.velocityHistory = s.velocityHistory ∧
      (moveBx A E cfg r s).1.opt.posHistory = s.opt.posHistory := by
  unfold moveBx
  generalize computeVelocityBx A s.opt.swarm s.velocity cfg.clamp cfg.vhStrategy s.vhMem _ _ = z
  obtain ⟨z1, z2⟩ := z
  cases z2 <;> exact ⟨rfl, rfl⟩

theorem iterateBx_sat {E : ℚ → XR ℚ} (hE : NpExp E) (cfg : Config n d ℚ) (L0 : Nat)
    {env : Nat → Draw n d ℚ} (hd : ∀ i, Sampled (env i))
    (ev : Mat n d ℚ → Except Err (Costs n ℚ)) (i : Nat) (q : List Bool) (t : OptBx n d ℚ)
    (h1 : t.velocityHistory.length = L0 + i) (h2 : t.opt.posHistory.length = L0 + i)
    (h3 : SatHist L0 env t)
    (h4 : ∀ k, i = k + 1 → ∀ a j,
      BitOf ((env k).thr j) (t.velocity a j) (t.opt.swarm.position a j)) :
    SatHist L0 env (iterateBx fpu64 E cfg ev (env i) i q t).1 ∧
    ∀ q', (iterateBx fpu64 E cfg ev (env i) i q t).2 = .ok (.continue q') →
      (iterateBx fpu64 E cfg ev (env i) i q t).1.velocityHistory.length = L0 + (i + 1) ∧
      (iterateBx fpu64 E cfg ev (env i) i q t).1.opt.posHistory.length = L0 + (i + 1) ∧
      ∀ a j, BitOf ((env i).thr j)
        ((iterateBx fpu64 E cfg ev (env i) i q t).1.velocity a j)
        ((iterateBx fpu64 E cfg ev (env i) i q t).1.opt.swarm.position a j) := by
  unfold iterateBx
  cases ev t.opt.swarm.position with
  | error e => exact ⟨h3, fun q' h => by cases h⟩
  | ok c =>
    dsimp only
    generalize callGbest cfg (env i).oracle _ _ = y
    obtain ⟨tp, y⟩ := y
    cases y with
    | error e => exact ⟨h3, fun q' h => by cases h⟩
    | ok g =>
      dsimp only
      have h5 : SatHist L0 env { t with
          opt := recordBest tp g (recordEval c t.opt)
          velocityHistory := t.velocityHistory ++ [t.velocity] } := by
        intro m v p hv hp
        change (t.velocityHistory ++ [t.velocity])[L0 + m + 1]? = some v at hv
        change (t.opt.posHistory ++ [t.opt.swarm.position])[L0 + m + 1]? = some p at hp
        by_cases hm : L0 + m + 1 < L0 + i
        · rw [List.getElem?_append_left (by rw [h1]; exact hm)] at hv
          rw [List.getElem?_append_left (by rw [h2]; exact hm)] at hp
          exact h3 m v p hv hp
        · rw [List.getElem?_append_right (by rw [h1]; omega), h1] at hv
          rw [List.getElem?_append_right (by rw [h2]; omega), h2] at hp
          have hi : i = m + 1 := by
            by_contra hne
            have : L0 + m + 1 - (L0 + i) ≠ 0 := by omega
            rw [List.getElem?_eq_none (by simp; omega)] at hv
            cases hv
          subst hi
          rw [show L0 + m + 1 - (L0 + (m + 1)) = 0 by omega] at hv hp
          cases hv
          cases hp
          exact h4 m rfl
      have h6 : ({ t with
          opt := recordBest tp g (recordEval c t.opt)
          velocityHistory := t.velocityHistory ++ [t.velocity] } :
            OptBx n d ℚ).velocityHistory.length = L0 + (i + 1) := by
        simp [h1, Nat.add_assoc]
      have h7 : (recordBest tp g (recordEval c t.opt)).posHistory.length = L0 + (i + 1) := by
        show (t.opt.posHistory ++ [t.opt.swarm.position]).length = _
        simp [h2, Nat.add_assoc]
      split
      · exact ⟨h5, fun q' h => by cases h⟩
      · have h8 := moveBx_history fpu64 E cfg (env i) { t with
          opt := recordBest tp g (recordEval c t.opt)
          velocityHistory := t.velocityHistory ++ [t.velocity] }
        cases hm : moveBx fpu64 E cfg (env i) { t with
          opt := recordBest tp g (recordEval c t.opt)
          velocityHistory := t.velocityHistory ++ [t.velocity] } with
        | mk s3 y =>
          rw [hm] at h8
          dsimp only at h8
          have h9 : SatHist L0 env s3 := by
            unfold SatHist
            rw [h8.1, h8.2]
            exact h5
          cases y with
          | error e => exact ⟨h9, fun q' h => by cases h⟩
          | ok u =>
            refine ⟨h9, fun q' _ => ⟨?_, ?_, saturated_move hE cfg (hd i) hm⟩⟩
            · rw [h8.1]; exact h6
            · rw [h8.2]; exact h7

theorem loopBx_sat {E : ℚ → XR ℚ} (hE : NpExp E) (cfg : Config n d ℚ) (L0 : Nat)
    {env : Nat → Draw n d ℚ} (hd : ∀ i, Sampled (env i))
    (ev : Nat → Mat n d ℚ → Except Err (Costs n ℚ)) (m i : Nat) (q : List Bool) (t : OptBx n d ℚ)
    (h1 : t.velocityHistory.length = L0 + i) (h2 : t.opt.posHistory.length = L0 + i)
    (h3 : SatHist L0 env t)
    (h4 : ∀ k, i = k + 1 → ∀ a j,
      BitOf ((env k).thr j) (t.velocity a j) (t.opt.swarm.position a j)) :
    SatHist L0 env (loopBx fpu64 E cfg ev env m i q t).1 := by
  induction m generalizing i q t with
  | zero => exact h3
  | succ m ih =>
    unfold loopBx
    have h5 := iterateBx_sat hE cfg L0 hd (ev i) i q t h1 h2 h3 h4
    revert h5
    generalize iterateBx fpu64 E cfg (ev i) (env i) i q t = z
    obtain ⟨z1, z2⟩ := z
    rintro ⟨h5, h6⟩
    rcases z2 with e | _ | q'
    · exact h5
    · exact h5
    · obtain ⟨h7, h8, h9⟩ := h6 q' rfl
      refine ih (i + 1) q' z1 h7 h8 h5 ?_
      rintro k hk
      cases hk
      exact h9

/-- The two histories have the same length. -/
theorem history_lengths [Transc K] [FloorRing K] {A : Fpu K} {E : K → XR K} {cfg : Config n d K} {D : Draw n d K → Prop}
    {I : InitDraw n d K → Prop} {s : OptBx n d K} (h : RunsBx A E cfg D I s) :
    s.velocityHistory.length = s.opt.posHistory.length := by
  induction h with
  | constructed r1 r2 h2 s h =>
    unfold constructBx at h
    split at h
    · cases h
    · next o ho =>
      cases h
      obtain ⟨sw, -, rfl⟩ := construct_ok cfg r1 r2 o ho
      rfl
  | optimized s hs ev iters env hd ih =>
    refine optimizeBx_inv A E cfg ev iters env
      (fun s => s.velocityHistory.length = s.opt.posHistory.length) (fun s h => h) ?_ s ih
    intro i q s hs
    refine iterateBx_inv A E cfg (ev i) (env i) i q
      (fun s => s.velocityHistory.length = s.opt.posHistory.length)
      (fun s c h _ => h) (fun s t h => h) ?_ ?_ s hs
    · intro s t g h _
      show (s.velocityHistory ++ [s.velocity]).length =
        (s.opt.posHistory ++ [s.opt.swarm.position]).length
      simp [h]
    · intro s h
      obtain ⟨e1, e2⟩ := moveBx_history A E cfg (env i) s
      rw [e1, e2]
      exact h
  | reset s hs r hr ih =>
    unfold resetBx reset
    cases resetSwarm cfg r <;> rfl

/-- **C111** (saturation).  In float64 the sigmoid of any velocity from 37 on is exactly 1.  So in the
histories recorded by a call of `optimize`, from its second iteration on, a bit whose velocity is at
least 37 is 1, whatever number was drawn (with exact arithmetic it could always be 0), and a bit
whose velocity is at most -37 is 0, unless the number drawn was exactly zero. -/
theorem C111_saturated (E : ℚ → XR ℚ) (hE : NpExp E) (cfg : Config n d ℚ) (s : OptBx n d ℚ)
    (h : RunsBx fpu64 E cfg Sampled SampledInit s)
    (ev : Nat → Mat n d ℚ → Except Err (Costs n ℚ)) (iters : Nat) (env : Nat → Draw n d ℚ)
    (hd : ∀ i, Sampled (env i)) (m : Nat) (v : Mat n d (XR ℚ)) (p : Mat n d ℚ)
    (hv : (optimizeBx fpu64 E cfg ev iters env s).1.velocityHistory[
      s.velocityHistory.length + m + 1]? = some v)
    (hp : (optimizeBx fpu64 E cfg ev iters env s).1.opt.posHistory[
      s.opt.posHistory.length + m + 1]? = some p) (i : Fin n) (j : Fin d) :
    (AtLeast37 (v i j) → p i j = 1) ∧ (AtMost37 (v i j) → (env m).thr j ≠ 0 → p i j = 0) := by
  have hl := history_lengths h
  rw [← hl] at hp
  rw [optimizeBx_state] at hv hp
  refine loopBx_sat hE cfg s.velocityHistory.length hd ev iters 0 [] (prepareBx s) rfl hl.symm ?_ ?_
    m v p hv hp i j
  · intro m v p hv _
    rw [List.getElem?_eq_none (by show s.velocityHistory.length ≤ _; omega)] at hv
    cases hv
  · rintro k hk
    cases hk

/-! ## Where nothing overflows, this is the exact model -/

/-- The same state in both models. -/
structure SameBx (s : Opt n d K) (t : OptBx n d K) : Prop where
  rest : t.opt = { s with
    swarm := { s.swarm with velocity := t.opt.swarm.velocity }
    vhMem := t.opt.vhMem
    velocityHistory := t.opt.velocityHistory }
  velocity : t.velocity = up s.swarm.velocity
  vhMem : t.vhMem = s.vhMem.map up
  history : t.velocityHistory = s.velocityHistory.map up

section exact
variable [Transc K] [FloorRing K] {A : Fpu K} {E : K → XR K}

theorem callGbest_velocity (cfg : Config n d K) (o : Oracle n d K) (t : TopState n)
    (s : Swarm n d K) (v : Mat n d K) :
    callGbest cfg o t { s with velocity := v } = callGbest cfg o t s := by
  rfl

theorem computeVelocityBx_up (hA : ∀ x, A.rnd x = .fin x) (s : Swarm n d K) (u : Mat n d K)
    (clamp : Option (Clamp d K)) (st : String) (mem : Option (Mat n d K)) (r1 r2 : Mat n d K) :
    computeVelocityBx A { s with velocity := u } (up s.velocity) clamp st (mem.map up) r1 r2 =
      ((computeVelocity s clamp st mem none r1 r2).1.map up,
       (computeVelocity s clamp st mem none r1 r2).2.map up) := by
  have hA' : ∀ x, A.rnd x = .fin (id x) := hA
  have htemp : ∀ c1 c2 w, tempVelocityBx A c1 c2 w r1 r2 { s with velocity := u } (up s.velocity) =
      up (tempVelocity c1 c2 w r1 r2 s) := by
    intro c1 c2 w
    funext i j
    unfold tempVelocityBx tempVelocity
    simp only [up, rndSub hA', rndMul hA', rndAdd hA', id]
  unfold computeVelocityBx computeVelocity
  dsimp only
  cases s.options.lookup "c1" with
  | none => rfl
  | some c1 =>
    cases s.options.lookup "c2" with
    | none => rfl
    | some c2 =>
      cases s.options.lookup "w" with
      | none => rfl
      | some w =>
        simp only [htemp]
        have hc : vhCallX A st (mem.map up) clamp none (up s.position)
              (up (tempVelocity c1 c2 w r1 r2 s)) =
            ((vhCall st mem clamp { position := some s.position, bounds := some none }
              (tempVelocity c1 c2 w r1 r2 s)).1.map up,
             (vhCall st mem clamp { position := some s.position, bounds := some none }
              (tempVelocity c1 c2 w r1 r2 s)).2.map up) :=
          vhCallX_up hA' st mem clamp none s.position (tempVelocity c1 c2 w r1 r2 s)
        have hc' : vhCallX A st (mem.map up) clamp none (fun i j => .fin (s.position i j))
              (up (tempVelocity c1 c2 w r1 r2 s)) = _ := hc
        rw [hc']
        cases s.bestPos with
        | empty =>
          dsimp only
          split_ifs
          · rfl
          · rfl
          · generalize vhCall st mem clamp _ _ = y
            obtain ⟨m, y⟩ := y
            cases y <;> rfl
          · rfl
        | single v => rfl
        | perParticle m => rfl

theorem ftolDeltaX_exact (hA : ∀ x, A.rnd x = .fin x) (a b c : XR K) :
    ftolDeltaX A a b c = ftolDelta a b c := by
  have hr : ∀ x : XR K, A.round x = x := by
    intro x
    cases x <;> simp [Fpu.round, hA]
  unfold ftolDeltaX ftolDelta
  simp only [Fpu.sub, Fpu.mul, Fpu.add, hr]

theorem binaryPositionX_up (hA : ∀ x, A.rnd x = .fin x)
    (hE : ∀ x, E x = .fin (Transc.exp x)) (hpos : ∀ x : K, 1 + Transc.exp x ≠ 0) (thr : Vec d K)
    (v : Mat n d K) : binaryPositionX A E thr (up v) = binaryPosition thr v := by
  funext i j
  have h : sigmoidX A E (.fin (v i j)) = .fin (sigmoid (v i j)) := by
    show A.div (.fin 1) (A.add (.fin 1) (E (-v i j))) = _
    rw [hE, Fpu.add_fin, hA]
    simp only [Fpu.div, XR.div, if_neg (hpos _), Fpu.round, hA]
    rfl
  unfold binaryPositionX binaryPosition
  simp only [up, h, XR.lt, decide_eq_true_eq]

/-- The same outcome in both models. -/
def SameRunBx {α : Type} (y : Opt n d K × Except Err α) (z : OptBx n d K × Except Err α) : Prop :=
  SameBx y.1 z.1 ∧ z.2 = y.2

theorem SameBx.swarm {s : Opt n d K} {t : OptBx n d K} (h : SameBx s t) :
    t.opt.swarm = { s.swarm with velocity := t.opt.swarm.velocity } :=
  (Opt.mk.inj h.rest).1

theorem SameBx.record {s : Opt n d K} {t : OptBx n d K} (h : SameBx s t) (c : Costs n K) :
    SameBx (recordEval c s) { t with opt := recordEval c t.opt } := by
  refine ⟨?_, h.velocity, h.vhMem, h.history⟩
  dsimp only
  rw [h.rest]
  rfl

theorem SameBx.best {s : Opt n d K} {t : OptBx n d K} (h : SameBx s t) (tp : TopState n)
    (g : GBest n d K) :
    SameBx (recordBest tp g s) { t with
      opt := recordBest tp g t.opt
      velocityHistory := t.velocityHistory ++ [t.velocity] } := by
  refine ⟨?_, h.velocity, h.vhMem, ?_⟩
  · dsimp only
    rw [h.rest]
    rfl
  · show t.velocityHistory ++ [t.velocity] = (s.velocityHistory ++ [s.swarm.velocity]).map up
    rw [h.history, h.velocity, List.map_append]
    rfl

theorem SameBx.gbest {s : Opt n d K} {t : OptBx n d K} (h : SameBx s t) (cfg : Config n d K)
    (o : Oracle n d K) : callGbest cfg o t.opt.top t.opt.swarm = callGbest cfg o s.top s.swarm := by
  rw [h.rest]
  exact callGbest_velocity cfg o s.top s.swarm _

variable (hA : ∀ x, A.rnd x = .fin x) (hE : ∀ x, E x = .fin (Transc.exp x))
  (hpos : ∀ x : K, 1 + Transc.exp x ≠ 0)
include hA hE hpos

theorem moveBx_up {cfg : Config n d K} (hk : cfg.kind = .binary) (r : Draw n d K) (iters i : Nat)
    {s : Opt n d K} {t : OptBx n d K} (h : SameBx s t) :
    SameRunBx (moveSwarm cfg r iters i s) (moveBx A E cfg r t) := by
  obtain ⟨⟨sw, top, bm, vm, ch, mp, mn, ph, vh, ev, op⟩, v, m, vhist⟩ := t
  obtain ⟨h1, h2, h3, h4⟩ := h
  dsimp only at h1 h2 h3 h4
  obtain ⟨e1, e2, e3, -, e5, e6, e7, e8, -, e10, e11⟩ := Opt.mk.inj h1
  subst h2 h3 h4 e2 e3 e5 e6 e7 e8 e10 e11
  generalize hu : sw.velocity = u at e1 h1
  subst e1
  unfold moveSwarm moveBx
  have ho : callOptions cfg iters i r s.swarm = .ok s.swarm.options := by
    simp only [callOptions, hk]
  have hb : velBounds cfg = none := by simp only [velBounds, hk]
  have hp : ∀ mem sw, callPosition cfg r mem sw = (mem, .ok (binaryPosition r.thr sw.velocity)) := by
    intro mem sw; simp only [callPosition, hk]
  rw [ho]
  simp only [hb, hp]
  rw [computeVelocityBx_up hA s.swarm u cfg.clamp cfg.vhStrategy s.vhMem r.r1 r.r2]
  generalize computeVelocity s.swarm cfg.clamp cfg.vhStrategy s.vhMem none r.r1 r.r2 = y
  obtain ⟨y1, y2⟩ := y
  cases y2 with
  | error e => exact ⟨⟨rfl, rfl, rfl, rfl⟩, rfl⟩
  | ok v =>
    have hbp := binaryPositionX_up hA hE hpos r.thr v
    refine ⟨⟨?_, rfl, rfl, rfl⟩, rfl⟩
    simp only [Except.map]
    rw [hbp]

theorem iterateBx_up {cfg : Config n d K} (hk : cfg.kind = .binary)
    (ev : Mat n d K → Except Err (Costs n K)) (r : Draw n d K) (iters i : Nat) (q : List Bool)
    {s : Opt n d K} {t : OptBx n d K} (h : SameBx s t) :
    SameRunBx (iterate cfg ev r iters i q s) (iterateBx A E cfg ev r i q t) := by
  unfold iterate iterateBx
  have hp : t.opt.swarm.position = s.swarm.position := by rw [h.swarm]
  rw [hp]
  cases ev s.swarm.position with
  | error e => exact ⟨h, rfl⟩
  | ok c =>
    have h1 := h.record c
    have hg : callGbest cfg r.oracle (recordEval c t.opt).top (recordEval c t.opt).swarm = _ :=
      h1.gbest cfg r.oracle
    dsimp only
    rw [hg]
    generalize callGbest cfg r.oracle (recordEval c s).top (recordEval c s).swarm = y
    obtain ⟨tp, y⟩ := y
    cases y with
    | error e =>
      refine ⟨⟨?_, h1.velocity, h1.vhMem, h1.history⟩, rfl⟩
      dsimp only
      have hr : recordEval c t.opt = _ := h1.rest
      rw [hr]
    | ok g =>
      dsimp only
      have h2 := h1.best tp g
      have hf : ftolDeltaX A cfg.ftol (recordBest tp g (recordEval c t.opt)).swarm.bestCostVal
          (recordEval c t.opt).swarm.bestCostVal =
          ftolDelta cfg.ftol (recordBest tp g (recordEval c s)).swarm.bestCostVal
            (recordEval c s).swarm.bestCostVal := by
        have hs1 : (recordEval c t.opt).swarm = _ := h1.swarm
        have hs2 : (recordBest tp g (recordEval c t.opt)).swarm = _ := h2.swarm
        rw [ftolDeltaX_exact hA, hs1, hs2]
        rfl
      rw [hf]
      split
      · exact ⟨h2, rfl⟩
      · have h3 := moveBx_up hA hE hpos hk r iters i h2
        revert h3
        dsimp only
        generalize moveSwarm cfg r iters i _ = y
        generalize moveBx A E cfg r _ = z
        obtain ⟨y1, y2⟩ := y
        obtain ⟨z1, z2⟩ := z
        rintro ⟨h3, h4⟩
        dsimp only at h3 h4
        subst h4
        cases z2 with
        | error e => exact ⟨h3, rfl⟩
        | ok u => exact ⟨h3, rfl⟩

theorem loopBx_up {cfg : Config n d K} (hk : cfg.kind = .binary)
    (ev : Nat → Mat n d K → Except Err (Costs n K)) (env : Nat → Draw n d K) (iters m i : Nat)
    (q : List Bool) {s : Opt n d K} {t : OptBx n d K} (h : SameBx s t) :
    SameRunBx (loop cfg ev env iters m i q s) (loopBx A E cfg ev env m i q t) := by
  induction m generalizing i q s t with
  | zero => exact ⟨h, rfl⟩
  | succ m ih =>
    unfold loop loopBx
    have h1 := iterateBx_up hA hE hpos hk (ev i) (env i) iters i q h
    revert h1
    generalize iterate cfg (ev i) (env i) iters i q s = y
    generalize iterateBx A E cfg (ev i) (env i) i q t = z
    obtain ⟨y1, y2⟩ := y
    obtain ⟨z1, z2⟩ := z
    rintro ⟨h1, h2⟩
    dsimp only at h1 h2
    subst h2
    rcases z2 with e | _ | q'
    · exact ⟨h1, rfl⟩
    · exact ⟨h1, rfl⟩
    · exact ih (i + 1) q' h1

/-- **C111** (agreement).  With exact arithmetic and the exact exponential function, a call of
`optimize` here does what the exact model of BinaryPSO does: the same evaluations, positions,
velocities, bests, histories, exceptions and result. -/
theorem C111_agrees {cfg : Config n d K} (hk : cfg.kind = .binary)
    (ev : Nat → Mat n d K → Except Err (Costs n K)) (iters : Nat) (env : Nat → Draw n d K)
    {s : Opt n d K} {t : OptBx n d K} (h : SameBx s t) :
    SameBx (optimize cfg ev iters none env s).1 (optimizeBx A E cfg ev iters env t).1 ∧
    (optimizeBx A E cfg ev iters env t).2 = (optimize cfg ev iters none env s).2 := by
  have h0 : SameBx { prepare cfg s with openPools := s.openPools + 0 } (prepareBx t) := by
    refine ⟨?_, h.velocity, ?_, h.history⟩
    · have hb : (prepare cfg s).bhMem = s.bhMem := by simp only [prepare, hk]
      unfold prepareBx
      dsimp only
      rw [hb]
      rw [h.rest]
      rfl
    · show some (up t.opt.swarm.position) = some (up s.swarm.position)
      rw [h.swarm]
  have h1 := loopBx_up hA hE hpos hk ev env iters iters 0 [] h0
  unfold optimize optimizeBx
  rw [if_neg (by simp)]
  simp only [Option.isSome_none, Bool.false_eq_true, if_false]
  revert h1
  generalize loop cfg ev env iters iters 0 [] _ = y
  generalize loopBx A E cfg ev env iters 0 [] _ = z
  obtain ⟨y1, y2⟩ := y
  obtain ⟨z1, z2⟩ := z
  rintro ⟨h1, h2⟩
  dsimp only at h1 h2
  subst h2
  cases z2 with
  | error e => exact ⟨h1, rfl⟩
  | ok u =>
    have hf : finish z1.opt = finish y1 := by
      unfold finish
      rw [h1.swarm]
    dsimp only
    rw [hf]
    cases finish y1 with
    | error e => exact ⟨h1, rfl⟩
    | ok r => exact ⟨h1, rfl⟩

omit hA hE hpos in
/-- **C111** (agreement, construction).  So do constructor and `reset`. -/
theorem C111_agrees_created (hA : ∀ x, A.rnd x = .fin x) (cfg : Config n d K)
    (r1 r2 : InitDraw n d K) :
    (∀ e, construct cfg r1 r2 = .error e → constructBx A cfg r1 r2 = .error e) ∧
    (∀ s, construct cfg r1 r2 = .ok s → ∃ t, constructBx A cfg r1 r2 = .ok t ∧ SameBx s t) ∧
    ∀ s t, SameBx s t → SameRunBx (reset cfg r1 s) (resetBx A cfg r1 t) := by
  have hA' : ∀ x, A.rnd x = .fin (id x) := hA
  have hv : ∀ (r : InitDraw n d K) sw, resetSwarm cfg r = .ok sw →
      generateVelocityX A cfg.clamp r.vel = up sw.velocity := by
    intro r sw h
    unfold resetSwarm createSwarm at h
    dsimp only at h
    split at h
    · cases h
    · cases h
      funext i j
      simp only [generateVelocityX, rndSub hA', rndMul hA', rndAdd hA', id, up, mkSwarm,
        generateVelocity]
      cases cfg.clamp <;> rfl
  refine ⟨?_, ?_, ?_⟩
  · intro e h
    unfold constructBx
    rw [h]
  · intro s h
    unfold constructBx
    rw [h]
    refine ⟨_, rfl, rfl, ?_, ?_, ?_⟩
    · dsimp only
      unfold construct at h
      split at h
      · cases h
      · split at h
        · cases h
        · split at h
          · cases h
          · split at h
            · cases h
            · next sw hs =>
              cases h
              exact hv r2 sw hs
    · dsimp only
      unfold construct at h
      split at h
      · cases h
      · split at h
        · cases h
        · split at h
          · cases h
          · split at h
            · cases h
            · cases h; rfl
    · dsimp only
      unfold construct at h
      split at h
      · cases h
      · split at h
        · cases h
        · split at h
          · cases h
          · split at h
            · cases h
            · cases h; rfl
  · intro s t h
    unfold resetBx reset
    cases hr : resetSwarm cfg r1 with
    | error e =>
      refine ⟨⟨?_, h.velocity, h.vhMem, rfl⟩, rfl⟩
      dsimp only
      rw [h.rest]
    | ok sw =>
      refine ⟨⟨?_, hv r1 sw hr, h.vhMem, rfl⟩, rfl⟩
      dsimp only
      rw [h.rest]

end exact

/-! ## The hypotheses can be met -/

/-- There are functions with the accuracy asked of `np.exp`. -/
theorem npExp_exists : ∃ E, NpExp E := by
  have h : ∀ x : ℚ, ∃ y : ℚ, |(y : ℝ) - Real.exp x| ≤ Real.exp x / 5 := by
    intro x
    have hp := Real.exp_pos (x : ℝ)
    obtain ⟨y, h1, h2⟩ := exists_rat_btwn (show Real.exp x < Real.exp x + Real.exp x / 5 by linarith)
    exact ⟨y, by rw [abs_le]; constructor <;> linarith⟩
  choose f hf using h
  refine ⟨fun x => if x ≤ -700 then .fin 0 else if 700 ≤ x then .pinf else .fin (f x), ?_, ?_, ?_⟩
  · intro x hx
    exact ⟨0, if_pos hx, le_rfl, by positivity⟩
  · intro x h1 h2
    exact ⟨f x, by simp [not_le.2 h1, not_le.2 h2], hf x⟩
  · intro x hx
    exact .inl (by simp [hx, show ¬ x ≤ -700 by linarith])

namespace Ex

/-- A crude exponential function for runs. -/
def stepExp (x : ℚ) : XR ℚ := if x < 0 then .fin (1 / 2) else if 0 < x then .fin 2 else .fin 1

/-- A BinaryPSO with a huge inertia. -/
def heavy : Config 2 1 ℚ :=
  { bcfg 2 1 2 with options := [("c1", 1 / 2), ("c2", 1 / 2), ("w", 2 ^ 1000)] }

/-- The same with a clamp. -/
def heavyClamped : Config 2 1 ℚ := { heavy with clamp := some (fun _ => -4, fun _ => 4) }

/-- What is seen of a run: the velocities are `+inf`, the last evaluated positions, `best_pos`, and the
number of evaluations. -/
def seenBx (cfg : Config 2 1 ℚ) (iters : Nat) : Option (Bool × Bool × List (ℚ × ℚ) × Option ℚ) :=
  match constructBx fpu64 cfg (init 2 1) (init 2 1) with
  | .error _ => none
  | .ok s =>
    let z := optimizeBx fpu64 stepExp cfg (sphere 2 1) iters (fun _ => draw 2 1) s
    some (match z.1.velocity 0 0 with | .pinf => true | _ => false,
      match z.1.velocity 1 0 with | .pinf => true | _ => false,
      z.1.opt.evals.map fun e => (e.1 0 0, e.1 1 0),
      match z.2 with | .ok (_, p) => some (p 0) | .error _ => none)

end Ex

theorem sampled_draw (n d : Nat) : Sampled (Ex.draw n d) := by
  have h : ∀ x : ℚ, x = 1 / 2 ∨ x = 1 / 4 → IsSample x := by
    rintro x (rfl | rfl)
    · exact ⟨2 ^ 52, by norm_num, by norm_num⟩
    · exact ⟨2 ^ 51, by norm_num, by norm_num⟩
  exact ⟨fun i j => ⟨h _ (.inl rfl), h _ (.inl rfl)⟩, fun j => h _ (by simp [Ex.draw])⟩

theorem sampledInit_init (n d : Nat) : SampledInit (Ex.init n d) := fun _ _ =>
  ⟨2 ^ 52, by norm_num, by norm_num [Ex.init]⟩

/-- The hypotheses of the theorems above hold of the two configurations. -/
example : Ex.heavy.kind = .binary ∧ MildOptions Ex.heavy.options ∧ ModerateClamp Ex.heavy.clamp ∧
    Ex.heavy.options.lookup "w" = some (2 ^ 1000) ∧ Ex.heavy.vhStrategy = "unmodified" ∧
    ModerateClamp Ex.heavyClamped.clamp ∧ MildOptions Ex.heavyClamped.options ∧
    IsDouble (-4) ∧ IsDouble 4 := by
  have ho : MildOptions Ex.heavy.options := by
    rintro x (h | h)
    · cases h; norm_num [abs_of_pos]
    · cases h; norm_num [abs_of_pos]
  refine ⟨rfl, ho, ?_, rfl, rfl, ?_, ho, ?_, ?_⟩
  · intro c h; cases h
  · intro c h j
    cases h
    have h4 : (4 : ℚ) ≤ 2 ^ 1000 := by
      calc (4 : ℚ) = 2 ^ 2 := by norm_num
        _ ≤ 2 ^ 1000 := pow_le_pow_right₀ (by norm_num) (by norm_num)
    simp only [abs_neg, abs_of_pos (show (0 : ℚ) < 4 by norm_num)]
    exact ⟨h4, h4⟩
  · exact ⟨-1, 2, by norm_num, by norm_num, by norm_num⟩
  · exact ⟨1, 2, by norm_num, by norm_num, by norm_num⟩

/-- A run whose velocities overflow: both particles are at 1, although 0 was evaluated, has the smaller
cost and is what `optimize` returns. -/
example : Ex.seenBx Ex.heavy 2 = some (true, true, [(1, 0), (1, 1)], some 0) ∧
    Ex.seenBx Ex.heavy 3 = some (true, true, [(1, 0), (1, 1), (1, 1)], some 0) := by
  constructor <;> decide +kernel

/-- With a clamp they do not overflow. -/
example : Ex.seenBx Ex.heavyClamped 2 = some (false, false, [(1, 0), (0, 0)], some 0) := by
  decide +kernel

/-- The overflowing state is one that `C111_frozen` speaks of, and `C111_saturated` applies to the run
with an exponential function as accurate as required. -/
example : ∃ s, RunsBx fpu64 Ex.stepExp Ex.heavy Sampled SampledInit s ∧ s.velocity 0 0 = .pinf := by
  have h : ∃ s, constructBx fpu64 Ex.heavy (Ex.init 2 1) (Ex.init 2 1) = .ok s := ⟨_, rfl⟩
  obtain ⟨s, hs⟩ := h
  refine ⟨_, .optimized s (.constructed _ _ (sampledInit_init 2 1) s hs) (Ex.sphere 2 1) 2
    (fun _ => Ex.draw 2 1) (fun _ => sampled_draw 2 1), ?_⟩
  have key : Ex.seenBx Ex.heavy 2 = some (true, true, [(1, 0), (1, 1)], some 0) := by
    decide +kernel
  unfold Ex.seenBx at key
  rw [hs] at key
  dsimp only at key
  have h1 := congrArg Prod.fst (Option.some.inj key)
  dsimp only at h1
  split at h1
  · assumption
  · cases h1

/-- The two models agree on a start: constructed with exact arithmetic. -/
example : ∃ s t, construct (Ex.bcfg 2 1 2) (Ex.init 2 1) (Ex.init 2 1) = .ok s ∧
    constructBx ⟨.fin⟩ (Ex.bcfg 2 1 2) (Ex.init 2 1) (Ex.init 2 1) = .ok t ∧ SameBx s t := by
  have h : ∃ s, construct (Ex.bcfg 2 1 2) (Ex.init 2 1) (Ex.init 2 1) = .ok s := ⟨_, rfl⟩
  obtain ⟨s, hs⟩ := h
  obtain ⟨t, ht, h⟩ := (C111_agrees_created (A := ⟨.fin⟩) (fun _ => rfl) (Ex.bcfg 2 1 2)
    (Ex.init 2 1) (Ex.init 2 1)).2.1 s hs
  exact ⟨s, t, hs, ht, h⟩

/-- The exponential function of the reals meets the hypothesis of `C111_agrees`. -/
example (x : ℝ) : 1 + Transc.exp x ≠ 0 := by
  have h : (0 : ℝ) < Transc.exp x := Real.exp_pos x
  linarith

end PySwarms
