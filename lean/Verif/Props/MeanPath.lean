import Verif.Lemmas.Decay
import Verif.Lemmas.Rest
import Mathlib.Probability.Independence.InfinitePi

/-!
# Where the swarm goes when nothing improves (C73)

GlobalBestPSO without bounds, clamp and time-varying options, started with all particles at
minimisers of the objective (for example: a flat objective).  Then no best ever changes, and the
positions are a stochastic process whose moments can be computed.
-/

open MeasureTheory ProbabilityTheory Filter Topology

namespace PySwarms

variable {n d : ℕ} {Ω : Type*} [MeasurableSpace Ω] {P : Measure Ω}

/-- The plain global-best configuration with the given options. -/
structure PlainStar (cfg : Config n d ℝ) (c1 c2 w : ℝ) : Prop where
  star : cfg.kind.isStar
  bounds : cfg.bounds = none
  clamp : cfg.clamp = none
  vh : cfg.vhStrategy = "unmodified"
  oh : cfg.ohStrategy = []
  ftol : cfg.ftol = XR.ninf
  window : 0 < cfg.window
  c1 : cfg.options.lookup "c1" = some c1
  c2 : cfg.options.lookup "c2" = some c2
  w : cfg.options.lookup "w" = some w

/-- `X t ω` are the positions that `pos_history` records for iteration `t`, in every run, of
whatever length, with the random numbers `env · ω`. -/
def Records (cfg : Config n d ℝ) (f : Vec d ℝ → ℝ) (env : ℕ → Ω → Draw n d ℝ) (s : Opt n d ℝ)
    (X : ℕ → Ω → Mat n d ℝ) : Prop :=
  ∀ ω T, (optimize cfg (eachParticle f) T none (fun t => env t ω) s).1.posHistory =
    (List.range T).map fun t => X t ω

/-- All coefficients drawn in all iterations are independent and uniform on `[0, 1]`. -/
def UniformCoefs (P : Measure Ω) (env : ℕ → Ω → Draw n d ℝ) : Prop :=
  IidUniform P fun (k : ℕ × Bool × Fin n × Fin d) ω => (env k.1 ω).coef k.2

/-- All particles start at global minimisers of `f`. -/
def StartsOptimal (f : Vec d ℝ → ℝ) (s : Opt n d ℝ) : Prop :=
  ∀ i y, f (s.swarm.position i) ≤ f y

theorem restPath_scalar (c1 c2 w : ℝ) (x0 v0 : Mat n d ℝ) (g : Vec d ℝ)
    (env : ℕ → Draw n d ℝ) (i : Fin n) (j : Fin d) (t : ℕ) :
    ((restPath c1 c2 w x0 v0 g env t).1 i j, (restPath c1 c2 w x0 v0 g env t).2 i j) =
      scalarPath c1 c2 w (x0 i j) (g j) (x0 i j) (v0 i j)
        (fun k => (env k.1).coef (k.2, i, j)) t := by
  induction t with
  | zero => rfl
  | succ t ih =>
    simp only [restPath, scalarPath, ← ih]
    rfl

theorem records_restPath (hn : 0 < n) {cfg : Config n d ℝ} {c1 c2 w : ℝ} (hp : PlainStar cfg c1 c2 w)
    (s : Opt n d ℝ) (hs : Fresh cfg s) {f : Vec d ℝ → ℝ} (hf : StartsOptimal f s)
    (env : ℕ → Ω → Draw n d ℝ) :
    Records cfg f env s fun t ω => (restPath c1 c2 w s.swarm.position s.swarm.velocity
      (s.swarm.position ⟨0, hn⟩) (fun t => env t ω) t).1 := by
  intro ω T
  exact rest_optimize hn hp.star hp.bounds hp.clamp hp.vh hp.oh hp.ftol hp.window hp.c1 hp.c2 hp.w s hs
    (c := f (s.swarm.position ⟨0, hn⟩)) (fun i => le_antisymm (hf i _) (hf _ _)) (hf _) _ T

theorem records_unique {cfg : Config n d ℝ} {s : Opt n d ℝ} {f : Vec d ℝ → ℝ}
    {env : ℕ → Ω → Draw n d ℝ} {X Y : ℕ → Ω → Mat n d ℝ} (hX : Records cfg f env s X)
    (hY : Records cfg f env s Y) : X = Y := by
  funext t ω
  have := (hX ω (t + 1)).symm.trans (hY ω (t + 1))
  simp only [List.range_succ, List.map_append, List.map_cons, List.map_nil] at this
  have := List.append_inj_right this (by simp)
  simpa using this

/-- C73: every run records one position per iteration, and what is recorded for iteration `t` does
not depend on the length of the run. -/
theorem C73_recorded (hn : 0 < n) {cfg : Config n d ℝ} {c1 c2 w : ℝ} (hp : PlainStar cfg c1 c2 w)
    (s : Opt n d ℝ) (hs : Fresh cfg s) {f : Vec d ℝ → ℝ} (hf : StartsOptimal f s)
    (env : ℕ → Ω → Draw n d ℝ) : ∃! X, Records cfg f env s X :=
  ⟨_, records_restPath hn hp s hs hf env, fun _ hY =>
    records_unique hY (records_restPath hn hp s hs hf env)⟩

section
variable (hn : 0 < n) {cfg : Config n d ℝ} {c1 c2 w : ℝ} (hp : PlainStar cfg c1 c2 w)
  (s : Opt n d ℝ) (hs : Fresh cfg s) {f : Vec d ℝ → ℝ} (hf : StartsOptimal f s)
  {env : ℕ → Ω → Draw n d ℝ} (hU : UniformCoefs P env) {X : ℕ → Ω → Mat n d ℝ}
  (hX : Records cfg f env s X)

include hp hs hf hX in
theorem recorded_scalar (i : Fin n) (j : Fin d) (t : ℕ) (ω : Ω) :
    X t ω i j = (scalarPath c1 c2 w (s.swarm.position i j) (s.swarm.position ⟨0, hn⟩ j)
      (s.swarm.position i j) (s.swarm.velocity i j) (fun k => (env k.1 ω).coef (k.2, i, j)) t).1 := by
  have := records_unique hX (records_restPath hn hp s hs hf env)
  rw [this]
  exact congrArg Prod.fst (restPath_scalar c1 c2 w s.swarm.position s.swarm.velocity
    (s.swarm.position ⟨0, hn⟩) (fun t => env t ω) i j t)

include hU in
theorem coefs_coord (i : Fin n) (j : Fin d) :
    IidUniform P fun (k : ℕ × Bool) ω => (env k.1 ω).coef (k.2, i, j) := by
  refine ⟨fun k => hU.meas (k.1, k.2, i, j), fun k => hU.law (k.1, k.2, i, j), ?_⟩
  have hg : Function.Injective fun k : ℕ × Bool => (k.1, k.2, i, j) := by
    rintro ⟨a, b⟩ ⟨a', b'⟩ h
    simp only [Prod.mk.injEq] at h
    ext <;> simp [h.1, h.2.1]
  exact hU.indep.precomp hg

/-- Existence of the moment sequences of one coordinate. -/
theorem moments_exist {U : ℕ × Bool → Ω → ℝ} (h : IidUniform P U) {p g x0 v0 q : ℝ}
    (hq : c1 * (p - q) + c2 * (g - q) = 0) :
    ∃ m l A B C : ℕ → ℝ, (∀ t, IsMoments P (dev U c1 c2 w p g x0 v0 q t)
        (devPrev U c1 c2 w p g x0 v0 q t) (m t) (l t) (A t) (B t) (C t)) ∧
      (∀ t, m (t + 1) = (1 + w - (c1 + c2) / 2) * m t - w * l t) ∧ (∀ t, l (t + 1) = m t) ∧
      (∀ t, A (t + 1) = (1 + w - (c1 + c2) / 2) ^ 2 * A t - 2 * (1 + w - (c1 + c2) / 2) * w * B t
        + w ^ 2 * C t + ((c1 ^ 2 * (p - q) ^ 2 + c2 ^ 2 * (g - q) ^ 2)
          - 2 * (c1 ^ 2 * (p - q) + c2 ^ 2 * (g - q)) * m t + (c1 ^ 2 + c2 ^ 2) * A t) / 12) ∧
      (∀ t, B (t + 1) = (1 + w - (c1 + c2) / 2) * A t - w * B t) ∧ ∀ t, C (t + 1) = A t := by
  have hM : ∀ t, IsMoments P (dev U c1 c2 w p g x0 v0 q t) (devPrev U c1 c2 w p g x0 v0 q t)
      (∫ ω, dev U c1 c2 w p g x0 v0 q t ω ∂P) (∫ ω, devPrev U c1 c2 w p g x0 v0 q t ω ∂P)
      (∫ ω, dev U c1 c2 w p g x0 v0 q t ω * dev U c1 c2 w p g x0 v0 q t ω ∂P)
      (∫ ω, devPrev U c1 c2 w p g x0 v0 q t ω * dev U c1 c2 w p g x0 v0 q t ω ∂P)
      (∫ ω, devPrev U c1 c2 w p g x0 v0 q t ω * devPrev U c1 c2 w p g x0 v0 q t ω ∂P) :=
    fun t => ⟨rfl, rfl, rfl, rfl, rfl⟩
  refine ⟨_, _, _, _, _, hM, ?_, ?_, ?_, ?_, ?_⟩ <;> intro t
  · exact (moments_step h hq t (hM t)).my
  · exact (moments_step h hq t (hM t)).mx
  · exact (moments_step h hq t (hM t)).yy
  · exact (moments_step h hq t (hM t)).xy
  · exact (moments_step h hq t (hM t)).xx

include hp hs hf hU hX

/-- C73: if `|w| < 1` and `0 < c1 + c2 < 4 (1 + w)`, the expected position of every particle converges
to the average of its own starting point and the one of the first particle, weighted by `c1` and
`c2`. -/
theorem C73_mean (hw : |w| < 1) (h0 : 0 < c1 + c2) (h4 : c1 + c2 < 4 * (1 + w)) (i : Fin n)
    (j : Fin d) :
    (∀ t, Integrable (fun ω => X t ω i j) P) ∧
    Tendsto (fun t => ∫ ω, X t ω i j ∂P) atTop
      (𝓝 ((c1 * s.swarm.position i j + c2 * s.swarm.position ⟨0, hn⟩ j) / (c1 + c2))) := by
  have hI := coefs_coord hU i j
  haveI := hI.prob
  set p := s.swarm.position i j
  set g := s.swarm.position ⟨0, hn⟩ j
  set q := (c1 * p + c2 * g) / (c1 + c2) with hqd
  have hq : c1 * (p - q) + c2 * (g - q) = 0 := by rw [hqd]; field_simp; ring
  have hXs := recorded_scalar hn hp s hs hf hX i j
  have he : ∀ t, (fun ω => X t ω i j) = fun ω => (scalarPath c1 c2 w p g p (s.swarm.velocity i j)
      (fun k => (env k.1 ω).coef (k.2, i, j)) t).1 := fun t => funext (hXs t)
  have hint : ∀ t, Integrable (fun ω => X t ω i j) P := by
    intro t
    rw [he]
    exact (pastBdd_pos (c1 := c1) (c2 := c2) (w := w) (p := p) (g := g) (x0 := p)
      (v0 := s.swarm.velocity i j) hI t).integrable hI
  refine ⟨hint, ?_⟩
  obtain ⟨m, l, A, B, C, hM, hm, hl, -⟩ := moments_exist (c1 := c1) (c2 := c2) (w := w) (x0 := p)
    (v0 := s.swarm.velocity i j) hI hq
  have hdec := second_order_decay (b := 1 + w - (c1 + c2) / 2) (w := w) hw
    (by rw [abs_lt] at hw ⊢; constructor <;> linarith) (z := m)
    (fun t => by rw [show t + 2 = (t + 1) + 1 from rfl, hm (t + 1), hl t])
  obtain ⟨ρ, D, hρ0, hρ1, hb⟩ := hdec
  refine tendsto_of_geometric hρ0 hρ1 (D := D) fun t => ?_
  have : ∫ ω, X t ω i j ∂P - q = m t := by
    rw [← (hM t).my]
    unfold dev
    have hi := hint t
    rw [he] at hi
    rw [integral_sub hi (integrable_const _), ← he]
    simp
  rw [this]; exact hb t

/-- C73: under the stronger condition `(1+w)(c1²+c2²) < 3(1-w)(c1+c2)(4(1+w)-(c1+c2))` the particles do
not drift away: the mean squared distance from that point stays bounded. -/
theorem C73_bounded (hw : |w| < 1)
    (h2 : (1 + w) * (c1 ^ 2 + c2 ^ 2) < 3 * (1 - w) * (c1 + c2) * (4 * (1 + w) - (c1 + c2)))
    (i : Fin n) (j : Fin d) :
    ∃ B, ∀ t, ∫ ω, (X t ω i j - (c1 * s.swarm.position i j + c2 * s.swarm.position ⟨0, hn⟩ j) /
      (c1 + c2)) ^ 2 ∂P ≤ B := by
  have hI := coefs_coord hU i j
  set p := s.swarm.position i j
  set g := s.swarm.position ⟨0, hn⟩ j
  set q := (c1 * p + c2 * g) / (c1 + c2) with hqd
  have hne : c1 + c2 ≠ 0 := by
    intro h; rw [h] at h2; rw [abs_lt] at hw; nlinarith [sq_nonneg c1, sq_nonneg c2]
  have hq : c1 * (p - q) + c2 * (g - q) = 0 := by rw [hqd]; field_simp; ring
  have hXs := recorded_scalar hn hp s hs hf hX i j
  obtain ⟨m, l, A, B, C, hM, hm, hl, hA, hB, hC⟩ := moments_exist (c1 := c1) (c2 := c2) (w := w)
    (x0 := p) (v0 := s.swarm.velocity i j) hI hq
  obtain ⟨D, hD⟩ := second_moment_bdd (w := w) (s := (c1 ^ 2 + c2 ^ 2) / 12)
    (L := 1 + w - (c1 + c2) / 2) (H := (c1 ^ 2 * (p - q) ^ 2 + c2 ^ 2 * (g - q) ^ 2) / 12)
    (κ := (c1 ^ 2 * (p - q) + c2 ^ 2 * (g - q)) / 12) (A := A) (B := B) (C := C) (m := m) hw
    (by positivity) (by nlinarith)
    (fun t => moments_psd hI (pastBdd_dev hI t) (pastBdd_devPrev hI t) (hM t))
    (fun t => moments_mean_sq hI (pastBdd_dev hI t) (hM t))
    (fun t => by rw [hA]; ring) hB hC
  refine ⟨D, fun t => ?_⟩
  have : ∫ ω, (X t ω i j - q) ^ 2 ∂P = A t := by
    rw [← (hM t).yy]
    refine integral_congr_ae (ae_of_all _ fun ω => ?_)
    simp only [dev, hXs]; ring
  rw [this]; exact hD t

/-- C73: … but a particle whose starting point differs from the first one's never settles: whatever the
options, its position in every later iteration is spread around every point `a` by at least a fixed
amount. -/
theorem C73_explores (hne : c1 + c2 ≠ 0) (i : Fin n) (j : Fin d) (t : ℕ) (a : ℝ) :
    c1 ^ 2 * c2 ^ 2 * (s.swarm.position i j - s.swarm.position ⟨0, hn⟩ j) ^ 2 /
      (12 * (c1 ^ 2 + c2 ^ 2)) ≤ ∫ ω, (X (t + 1) ω i j - a) ^ 2 ∂P := by
  have hI := coefs_coord hU i j
  haveI := hI.prob
  set p := s.swarm.position i j
  set g := s.swarm.position ⟨0, hn⟩ j
  set q := (c1 * p + c2 * g) / (c1 + c2) with hqd
  have hq : c1 * (p - q) + c2 * (g - q) = 0 := by rw [hqd]; field_simp; ring
  have hXs := recorded_scalar hn hp s hs hf hX i j
  obtain ⟨m, l, A, B, C, hM, hm, hl, hA, hB, hC⟩ := moments_exist (c1 := c1) (c2 := c2) (w := w)
    (x0 := p) (v0 := s.swarm.velocity i j) hI hq
  have hy := pastBdd_dev (c1 := c1) (c2 := c2) (w := w) (p := p) (g := g) (x0 := p)
    (v0 := s.swarm.velocity i j) (q := q) hI
  have hx := pastBdd_devPrev (c1 := c1) (c2 := c2) (w := w) (p := p) (g := g) (x0 := p)
    (v0 := s.swarm.velocity i j) (q := q) hI
  -- second moment around `a`
  have e1 : ∫ ω, (X (t + 1) ω i j - a) ^ 2 ∂P = A (t + 1) - 2 * (a - q) * m (t + 1) + (a - q) ^ 2 := by
    have he : (fun ω => (X (t + 1) ω i j - a) ^ 2) = fun ω =>
        dev (fun (k : ℕ × Bool) ω => (env k.1 ω).coef (k.2, i, j)) c1 c2 w p g p
          (s.swarm.velocity i j) q (t + 1) ω *
        dev (fun (k : ℕ × Bool) ω => (env k.1 ω).coef (k.2, i, j)) c1 c2 w p g p
          (s.swarm.velocity i j) q (t + 1) ω - 2 * (a - q) *
        dev (fun (k : ℕ × Bool) ω => (env k.1 ω).coef (k.2, i, j)) c1 c2 w p g p
          (s.swarm.velocity i j) q (t + 1) ω + (a - q) ^ 2 := by
      funext ω; simp only [dev, hXs]; ring
    have i1 := ((hy (t + 1)).mul (hy (t + 1))).integrable hI
    have i2 := ((hy (t + 1)).integrable hI).const_mul (2 * (a - q))
    have i3 := i1.sub i2
    rw [he]
    have := integral_add i3 (integrable_const ((a - q) ^ 2))
    simp only [Pi.sub_apply] at this
    rw [this]
    have := integral_sub i1 i2
    rw [this, integral_const_mul, (hM (t + 1)).yy, (hM (t + 1)).my]
    simp
  -- the deterministic part
  set L := 1 + w - (c1 + c2) / 2 with hL
  have e2 : m (t + 1) ^ 2 ≤ L ^ 2 * A t - 2 * L * w * B t + w ^ 2 * C t := by
    set y := dev (fun (k : ℕ × Bool) ω => (env k.1 ω).coef (k.2, i, j)) c1 c2 w p g p
          (s.swarm.velocity i j) q t
    set x := devPrev (fun (k : ℕ × Bool) ω => (env k.1 ω).coef (k.2, i, j)) c1 c2 w p g p
          (s.swarm.velocity i j) q t
    have bD : PastBdd P (fun (k : ℕ × Bool) ω => (env k.1 ω).coef (k.2, i, j)) t
        (fun ω => L * y ω - w * x ω) :=
      ((PastBdd.const L).mul (hy t)).sub ((PastBdd.const w).mul (hx t))
    have iyy := ((hy t).mul (hy t)).integrable hI
    have ixy := ((hx t).mul (hy t)).integrable hI
    have ixx := ((hx t).mul (hx t)).integrable hI
    have hDD : ∫ ω, (L * y ω - w * x ω) * (L * y ω - w * x ω) ∂P =
        L ^ 2 * A t - 2 * L * w * B t + w ^ 2 * C t := by
      have he : (fun ω => (L * y ω - w * x ω) * (L * y ω - w * x ω)) = fun ω =>
          L ^ 2 * (y ω * y ω) - 2 * L * w * (x ω * y ω) + w ^ 2 * (x ω * x ω) := by
        funext ω; ring
      rw [he, integral_add (f := fun ω => L ^ 2 * (y ω * y ω) - 2 * L * w * (x ω * y ω))
        ((iyy.const_mul _).sub (ixy.const_mul _)) (ixx.const_mul _),
        integral_sub (iyy.const_mul _) (ixy.const_mul _), integral_const_mul, integral_const_mul,
        integral_const_mul, (hM t).yy, (hM t).xy, (hM t).xx]
    have hDm : ∫ ω, (L * y ω - w * x ω) ∂P = m (t + 1) := by
      rw [integral_sub (((hy t).integrable hI).const_mul L) (((hx t).integrable hI).const_mul w),
        integral_const_mul, integral_const_mul, (hM t).my, (hM t).mx, hm t]
    exact moments_mean_sq (x := x) hI bD ⟨hDm, rfl, hDD, rfl, rfl⟩
  have e3 := moments_mean_sq hI (hy t) (hM t)
  have hS : 0 < c1 ^ 2 + c2 ^ 2 := by
    rcases eq_or_ne c1 0 with h | h
    · have : c2 ≠ 0 := by rintro rfl; exact hne (by rw [h]; ring)
      positivity
    · positivity
  rw [e1, hA t]
  set S := c1 ^ 2 + c2 ^ 2 with hSd
  set T := c1 ^ 2 * (p - q) + c2 ^ 2 * (g - q) with hTd
  set H := c1 ^ 2 * (p - q) ^ 2 + c2 ^ 2 * (g - q) ^ 2 with hHd
  have e4 : c1 ^ 2 * c2 ^ 2 * (p - g) ^ 2 ≤ S * (H - 2 * T * m t + S * A t) := by
    have : S * H - c1 ^ 2 * c2 ^ 2 * (p - g) ^ 2 = T ^ 2 := by rw [hSd, hHd, hTd]; ring
    nlinarith [sq_nonneg (S * m t - T), mul_le_mul_of_nonneg_left e3 (sq_nonneg S)]
  have e5 : c1 ^ 2 * c2 ^ 2 * (p - g) ^ 2 / (12 * S) ≤ (H - 2 * T * m t + S * A t) / 12 := by
    rw [div_le_div_iff₀ (by positivity) (by norm_num)]
    nlinarith
  nlinarith [sq_nonneg (m (t + 1) - (a - q))]

/-- C73: every coordinate in which a particle starts where the first particle starts – in particular
every coordinate of the first particle – converges to that point, in mean square and almost surely,
under the condition of `C73_bounded`. -/
theorem C73_best_particle (hw : |w| < 1)
    (h2 : (1 + w) * (c1 ^ 2 + c2 ^ 2) < 3 * (1 - w) * (c1 + c2) * (4 * (1 + w) - (c1 + c2)))
    (i : Fin n) (j : Fin d) (hij : s.swarm.position i j = s.swarm.position ⟨0, hn⟩ j) :
    Tendsto (fun t => ∫ ω, (X t ω i j - s.swarm.position i j) ^ 2 ∂P) atTop (𝓝 0) ∧
    ∀ᵐ ω ∂P, Tendsto (fun t => X t ω i j) atTop (𝓝 (s.swarm.position i j)) := by
  have hI := coefs_coord hU i j
  haveI := hI.prob
  set p := s.swarm.position i j with hpd
  have hXs := recorded_scalar hn hp s hs hf hX i j
  rw [← hij] at hXs
  have hq : c1 * (p - p) + c2 * (p - p) = 0 := by ring
  obtain ⟨m, l, A, B, C, hM, hm, hl, hA, hB, hC⟩ := moments_exist (c1 := c1) (c2 := c2) (w := w)
    (x0 := p) (v0 := s.swarm.velocity i j) hI hq
  obtain ⟨ρ, D, hρ0, hρ1, hD⟩ := second_moment_decay (w := w) (s := (c1 ^ 2 + c2 ^ 2) / 12)
    (L := 1 + w - (c1 + c2) / 2) (A := A) (B := B) (C := C) hw
    (by positivity) (by nlinarith)
    (fun t => moments_psd hI (pastBdd_dev hI t) (pastBdd_devPrev hI t) (hM t))
    (fun t => by rw [hA]; ring) hB hC
  have hAt : ∀ t, ∫ ω, (X t ω i j - p) ^ 2 ∂P = A t := by
    intro t
    rw [← (hM t).yy]
    refine integral_congr_ae (ae_of_all _ fun ω => ?_)
    simp only [dev, hXs]; ring
  have hA0 : ∀ t, 0 ≤ A t := fun t => by rw [← hAt]; exact integral_nonneg fun ω => sq_nonneg _
  refine ⟨?_, ?_⟩
  · simp only [hAt]
    refine squeeze_zero hA0 hD ?_
    simpa using (tendsto_pow_atTop_nhds_zero_of_lt_one hρ0 hρ1).const_mul D
  · have hsum : Summable A := by
      refine Summable.of_nonneg_of_le hA0 hD ?_
      exact (summable_geometric_of_lt_one hρ0 hρ1).mul_left D
    have hmeas : ∀ t, Measurable fun ω => (X t ω i j - p) ^ 2 := by
      intro t
      simp only [hXs]
      exact (((path_measurable t).1.mono (past_le hI t) le_rfl).sub_const p).pow_const 2
    have hintg : ∀ t, Integrable (fun ω => (X t ω i j - p) ^ 2) P := by
      intro t
      have hb := pastBdd_dev (c1 := c1) (c2 := c2) (w := w) (p := p) (g := p) (x0 := p)
        (v0 := s.swarm.velocity i j) (q := p) hI t
      have := (hb.mul hb).integrable hI
      refine this.congr (ae_of_all _ fun ω => ?_)
      simp only [dev, hXs]; ring
    have hl : ∫⁻ ω, ∑' t, ENNReal.ofReal ((X t ω i j - p) ^ 2) ∂P ≠ ⊤ := by
      rw [lintegral_tsum fun t => (hmeas t).ennreal_ofReal.aemeasurable]
      have : ∀ t, ∫⁻ ω, ENNReal.ofReal ((X t ω i j - p) ^ 2) ∂P = ENNReal.ofReal (A t) := by
        intro t
        rw [← hAt, ofReal_integral_eq_lintegral_ofReal (hintg t) (ae_of_all _ fun ω => sq_nonneg _)]
      simp only [this]
      exact hsum.tsum_ofReal_ne_top
    have hae := ae_lt_top' (AEMeasurable.ennreal_tsum fun t => (hmeas t).ennreal_ofReal.aemeasurable) hl
    filter_upwards [hae] with ω hω
    have h1 := ENNReal.tendsto_atTop_zero_of_tsum_ne_top hω.ne
    have h2 : Tendsto (fun t => (X t ω i j - p) ^ 2) atTop (𝓝 0) := by
      have := (ENNReal.tendsto_toReal ENNReal.zero_ne_top).comp h1
      simpa [Function.comp_def, ENNReal.toReal_ofReal (sq_nonneg _)] using this
    have h3 : Tendsto (fun t => |X t ω i j - p|) atTop (𝓝 0) := by
      have := h2.sqrt
      simpa [Real.sqrt_sq_eq_abs] using this
    rw [tendsto_iff_norm_sub_tendsto_zero]
    exact h3

/-- C73: the bound on `c1 + c2` is sharp: for `c1 + c2 > 4 (1 + w)`, `w ≠ 0`, the expected position of
the first particle grows without bound in every dimension in which it has an initial velocity,
although it starts at the minimum. -/
theorem C73_unstable (hw : |w| < 1) (hw0 : w ≠ 0) (h4 : 4 * (1 + w) < c1 + c2) (j : Fin d)
    (hv : s.swarm.velocity ⟨0, hn⟩ j ≠ 0) :
    Tendsto (fun t => |∫ ω, X t ω ⟨0, hn⟩ j ∂P - s.swarm.position ⟨0, hn⟩ j|) atTop atTop := by
  have hI := coefs_coord hU ⟨0, hn⟩ j
  haveI := hI.prob
  set p := s.swarm.position ⟨0, hn⟩ j
  set v := s.swarm.velocity ⟨0, hn⟩ j
  have hq : c1 * (p - p) + c2 * (p - p) = 0 := by ring
  have hXs := recorded_scalar hn hp s hs hf hX ⟨0, hn⟩ j
  have he : ∀ t, (fun ω => X t ω ⟨0, hn⟩ j) = fun ω => (scalarPath c1 c2 w p p p v
      (fun k => (env k.1 ω).coef (k.2, ⟨0, hn⟩, j)) t).1 := fun t => funext (hXs t)
  obtain ⟨m, l, A, B, C, hM, hm, hl, -⟩ := moments_exist (c1 := c1) (c2 := c2) (w := w) (x0 := p)
    (v0 := v) hI hq
  have hm0 : m 0 = 0 := by rw [← (hM 0).my]; simp [dev, scalarPath]
  have hl0 : l 0 = -v := by rw [← (hM 0).mx]; simp [devPrev, scalarPath]
  have hm1 : m 1 = w * v := by rw [hm 0, hm0, hl0]; ring
  have hg := second_order_growth (b := 1 + w - (c1 + c2) / 2) (a := w * v) hw (by linarith)
    (mul_ne_zero hw0 hv) (z := m)
    (fun t => by rw [show t + 2 = (t + 1) + 1 from rfl, hm (t + 1), hl t]) hm0 hm1
  refine hg.congr fun t => ?_
  congr 1
  rw [← (hM t).my]
  unfold dev
  have hi := (pastBdd_pos (c1 := c1) (c2 := c2) (w := w) (p := p) (g := p) (x0 := p)
    (v0 := v) hI t).integrable hI
  rw [integral_sub hi (integrable_const _), ← he]
  simp

end

/-! ### Non-vacuity -/

/-- Random numbers exist: on the product space the coordinates are independent and uniform. -/
theorem uniformCoefs_exist (n d : ℕ) : ∃ (Ω : Type) (_ : MeasurableSpace Ω) (P : Measure Ω)
    (env : ℕ → Ω → Draw n d ℝ), UniformCoefs P env := by
  refine ⟨ℕ × Bool × Fin n × Fin d → ℝ, inferInstance, Measure.infinitePi fun _ => unitLaw,
    fun t ω =>
      { r1 := fun i j => ω (t, false, i, j), r2 := fun i j => ω (t, true, i, j)
        bh := ⟨fun _ => 0, fun _ => 0, 0⟩
        oracle := ⟨fun _ _ _ _ => [], fun _ => .error .valueError, fun _ _ => []⟩
        oh := fun _ => 0, thr := fun _ => 0 }, ?_⟩
  have he : (fun (k : ℕ × Bool × Fin n × Fin d) (ω : ℕ × Bool × Fin n × Fin d → ℝ) =>
      Draw.coef (n := n) (d := d)
        { r1 := fun i j => ω (k.1, false, i, j), r2 := fun i j => ω (k.1, true, i, j)
          bh := ⟨fun _ => 0, fun _ => 0, 0⟩
          oracle := ⟨fun _ _ _ _ => [], fun _ => .error .valueError, fun _ _ => []⟩
          oh := fun _ => 0, thr := fun _ => 0 } k.2) = fun k ω => ω k := by
    funext ⟨t, b, i, j⟩ ω
    cases b <;> rfl
  unfold UniformCoefs
  simp only
  rw [he]
  exact ⟨fun k => measurable_pi_apply k, fun k => Measure.infinitePi_map_eval _ k,
    iIndepFun_infinitePi (X := fun _ x => x) fun _ => measurable_id⟩

/-- The options of the documentation, two particles in one dimension, a flat objective: all the
hypotheses hold, and the two particles start at different points. -/
example : ∃ (cfg : Config 2 1 ℝ) (s : Opt 2 1 ℝ), PlainStar cfg 0.5 0.3 0.9 ∧ Fresh cfg s ∧
    StartsOptimal (fun _ => 7) s ∧ s.swarm.position 0 0 ≠ s.swarm.position 1 0 ∧
    s.swarm.velocity 0 0 ≠ 0 := by
  refine ⟨{ kind := .globalBest, options := [("c1", 0.5), ("c2", 0.3), ("w", 0.9)]
            center := fun _ => 1, initPos := some fun i _ => if i = 0 then 3 else 5 },
    { swarm := mkSwarm (fun i _ => if i = 0 then 3 else 5)
        (generateVelocity none fun _ _ => 1 / 2) [("c1", 0.5), ("c2", 0.3), ("w", 0.9)] }, ?_, ?_,
    ?_, ?_, ?_⟩
  · constructor <;> simp [Kind.isStar, Config.window, List.lookup]
  · left
    exact ⟨⟨fun _ _ => 0, fun _ _ => true, fun _ j => j, fun _ _ => 0⟩,
      ⟨fun _ _ => 0, fun _ _ => true, fun _ j => j, fun _ _ => 1 / 2⟩, rfl⟩
  · intro i y; exact le_refl _
  · simp [mkSwarm]
  · simp [mkSwarm, generateVelocity]

/-- The documented options satisfy the conditions of `C73_mean` and of `C73_bounded`. -/
example : |(0.9 : ℝ)| < 1 ∧ (0 : ℝ) < 0.5 + 0.3 ∧ (0.5 + 0.3 : ℝ) < 4 * (1 + 0.9) ∧
    (1 + 0.9 : ℝ) * (0.5 ^ 2 + 0.3 ^ 2) < 3 * (1 - 0.9) * (0.5 + 0.3) * (4 * (1 + 0.9) - (0.5 + 0.3)) := by
  refine ⟨by rw [abs_of_pos] <;> norm_num, by norm_num, by norm_num, by norm_num⟩

end PySwarms
