import Verif.Lemmas.Chance

/-! First and second moments of one coordinate of a particle whose bests rest.  Helper lemmas. -/

open MeasureTheory ProbabilityTheory Filter

namespace PySwarms

section
variable {Ω : Type*} [mΩ : MeasurableSpace Ω] {P : Measure Ω} {U : ℕ × Bool → Ω → ℝ}
variable {c1 c2 w p g x0 v0 : ℝ}

/-- A bounded quantity known before iteration `t`. -/
structure PastBdd (P : Measure Ω) (U : ℕ × Bool → Ω → ℝ) (t : ℕ) (f : Ω → ℝ) : Prop where
  meas : Measurable[past U t] f
  bdd : ∃ B : ℝ, ∀ᵐ ω ∂P, |f ω| ≤ B

namespace PastBdd
variable {t : ℕ} {f k : Ω → ℝ}

theorem integrable (h : IidUniform P U) (hf : PastBdd P U t f) : Integrable f P := by
  haveI := h.prob
  exact integrable_of_bdd (hf.meas.mono (past_le h t) le_rfl) hf.bdd

theorem const (c : ℝ) : PastBdd P U t (fun _ => c) :=
  ⟨measurable_const, |c|, ae_of_all _ fun _ => le_rfl⟩

theorem add (hf : PastBdd P U t f) (hk : PastBdd P U t k) : PastBdd P U t (fun ω => f ω + k ω) := by
  obtain ⟨B, hB⟩ := hf.bdd
  obtain ⟨C, hC⟩ := hk.bdd
  refine ⟨hf.meas.add hk.meas, B + C, ?_⟩
  filter_upwards [hB, hC] with ω h1 h2 using (abs_add_le _ _).trans (add_le_add h1 h2)

theorem sub (hf : PastBdd P U t f) (hk : PastBdd P U t k) : PastBdd P U t (fun ω => f ω - k ω) := by
  obtain ⟨B, hB⟩ := hf.bdd
  obtain ⟨C, hC⟩ := hk.bdd
  refine ⟨hf.meas.sub hk.meas, B + C, ?_⟩
  filter_upwards [hB, hC] with ω h1 h2 using (abs_sub _ _).trans (add_le_add h1 h2)

theorem mul (hf : PastBdd P U t f) (hk : PastBdd P U t k) : PastBdd P U t (fun ω => f ω * k ω) := by
  obtain ⟨B, hB⟩ := hf.bdd
  obtain ⟨C, hC⟩ := hk.bdd
  refine ⟨hf.meas.mul hk.meas, B * C, ?_⟩
  filter_upwards [hB, hC] with ω h1 h2
  rw [abs_mul]
  exact mul_le_mul h1 h2 (abs_nonneg _) ((abs_nonneg _).trans h1)

end PastBdd

theorem pastBdd_pos (h : IidUniform P U) (t : ℕ) :
    PastBdd P U t (fun ω => (scalarPath c1 c2 w p g x0 v0 (fun k => U k ω) t).1) := by
  obtain ⟨B, hB⟩ := path_bdd (c1 := c1) (c2 := c2) (w := w) (p := p) (g := g) (x0 := x0)
    (v0 := v0) h t
  exact ⟨(path_measurable t).1, B, hB.mono fun ω h => h.1⟩

theorem pastBdd_vel (h : IidUniform P U) (t : ℕ) :
    PastBdd P U t (fun ω => (scalarPath c1 c2 w p g x0 v0 (fun k => U k ω) t).2) := by
  obtain ⟨B, hB⟩ := path_bdd (c1 := c1) (c2 := c2) (w := w) (p := p) (g := g) (x0 := x0)
    (v0 := v0) h t
  exact ⟨(path_measurable t).2, B, hB.mono fun ω h => h.2⟩

/-- The centred coefficient `U (t, b) - 1/2`. -/
theorem centred_mul (h : IidUniform P U) {t : ℕ} (b : Bool) {f : Ω → ℝ} (hf : PastBdd P U t f) :
    Integrable (fun ω => (U (t, b) ω - 1 / 2) * f ω) P ∧
    ∫ ω, (U (t, b) ω - 1 / 2) * f ω ∂P = 0 := by
  haveI := h.prob
  have hm : Measurable[present U t] (fun ω => U (t, b) ω - 1 / 2) :=
    (measurable_present t b).sub measurable_const
  have hI : Integrable (U (t, b)) P := integrable_of_bdd (h.meas _) ⟨1, by
    filter_upwards [h.ae_mem (t, b)] with ω hω
    rw [abs_of_nonneg hω.1]; exact hω.2⟩
  have hI' : Integrable (fun ω => U (t, b) ω - 1 / 2) P := hI.sub (integrable_const _)
  refine ⟨(indepFun_of h hm hf.meas).integrable_mul hI' (hf.integrable h), ?_⟩
  rw [integral_indep h hm hf.meas, integral_sub hI (integrable_const _), h.mean]
  simp

theorem centred_bdd (h : IidUniform P U) (t : ℕ) (b : Bool) :
    ∀ᵐ ω ∂P, |U (t, b) ω - 1 / 2| ≤ 1 := by
  filter_upwards [h.ae_mem (t, b)] with ω hω
  rw [abs_le]; constructor <;> linarith [hω.1, hω.2]

theorem centred_sq (h : IidUniform P U) (t : ℕ) (b : Bool) :
    ∫ ω, (U (t, b) ω - 1 / 2) ^ 2 ∂P = 1 / 12 := by
  haveI := h.prob
  have hI : Integrable (U (t, b)) P := integrable_of_bdd (h.meas _) ⟨1, by
    filter_upwards [h.ae_mem (t, b)] with ω hω
    rw [abs_of_nonneg hω.1]; exact hω.2⟩
  have hI2 : Integrable (fun ω => U (t, b) ω ^ 2) P := integrable_of_bdd ((h.meas _).pow_const 2)
    ⟨1, by
      filter_upwards [h.ae_mem (t, b)] with ω hω
      rw [abs_of_nonneg (by positivity)]; exact pow_le_one₀ hω.1 hω.2⟩
  have : (fun ω => (U (t, b) ω - 1 / 2) ^ 2) = fun ω => U (t, b) ω ^ 2 - U (t, b) ω + 1 / 4 := by
    funext ω; ring
  rw [this, integral_add (f := fun ω => U (t, b) ω ^ 2 - U (t, b) ω) (hI2.sub hI)
    (integrable_const _), integral_sub hI2 hI, h.mean, h.second]
  simp; norm_num

theorem centred_cross (h : IidUniform P U) (t : ℕ) :
    ∫ ω, (U (t, false) ω - 1 / 2) * (U (t, true) ω - 1 / 2) ∂P = 0 := by
  haveI := h.prob
  have hI : ∀ b, Integrable (U (t, b)) P := fun b => integrable_of_bdd (h.meas _) ⟨1, by
    filter_upwards [h.ae_mem (t, b)] with ω hω
    rw [abs_of_nonneg hω.1]; exact hω.2⟩
  have hi : IndepFun (U (t, false)) (U (t, true)) P := h.indep.indepFun (by simp)
  have hi' := hi.comp (φ := fun x : ℝ => x - 1 / 2) (ψ := fun x : ℝ => x - 1 / 2)
    (measurable_id.sub_const _) (measurable_id.sub_const _)
  have := hi'.integral_fun_mul_eq_mul_integral
    ((h.meas _).sub_const _).aestronglyMeasurable ((h.meas _).sub_const _).aestronglyMeasurable
  simp only [Function.comp_def] at this
  rw [this, integral_sub (hI _) (integrable_const _), h.mean]
  simp

/-- The square of the noise in one iteration. -/
theorem noise_sq (h : IidUniform P U) {t : ℕ} {f k : Ω → ℝ} (hf : PastBdd P U t f)
    (hk : PastBdd P U t k) :
    Integrable (fun ω => ((U (t, false) ω - 1 / 2) * f ω + (U (t, true) ω - 1 / 2) * k ω) ^ 2) P ∧
    ∫ ω, ((U (t, false) ω - 1 / 2) * f ω + (U (t, true) ω - 1 / 2) * k ω) ^ 2 ∂P =
      (∫ ω, f ω * f ω ∂P + ∫ ω, k ω * k ω ∂P) / 12 := by
  haveI := h.prob
  have hm : ∀ b, Measurable[present U t] (fun ω => U (t, b) ω - 1 / 2) := fun b =>
    (measurable_present t b).sub measurable_const
  have hM : ∀ b, Measurable (fun ω => U (t, b) ω - 1 / 2) := fun b => (h.meas _).sub_const _
  have hsq : ∀ b, Measurable[present U t] (fun ω => (U (t, b) ω - 1 / 2) ^ 2) := fun b =>
    (hm b).pow_const 2
  have hx : Measurable[present U t]
      (fun ω => (U (t, false) ω - 1 / 2) * (U (t, true) ω - 1 / 2)) := (hm _).mul (hm _)
  have hIsq : ∀ b, Integrable (fun ω => (U (t, b) ω - 1 / 2) ^ 2) P := fun b =>
    integrable_of_bdd ((hM b).pow_const 2) ⟨1, by
      filter_upwards [centred_bdd h t b] with ω hω
      rw [abs_pow]; exact pow_le_one₀ (abs_nonneg _) hω⟩
  have hIx : Integrable (fun ω => (U (t, false) ω - 1 / 2) * (U (t, true) ω - 1 / 2)) P :=
    integrable_of_bdd ((hM _).mul (hM _)) ⟨1, by
      filter_upwards [centred_bdd h t false, centred_bdd h t true] with ω h1 h2
      rw [abs_mul]; exact mul_le_one₀ h1 (abs_nonneg _) h2⟩
  have hff := hf.mul hf
  have hkk := hk.mul hk
  have hfk := hf.mul hk
  have i1 := (indepFun_of h (hsq false) hff.meas).integrable_mul (hIsq _) (hff.integrable h)
  have i2 := (indepFun_of h (hsq true) hkk.meas).integrable_mul (hIsq _) (hkk.integrable h)
  have i3 := (indepFun_of h hx hfk.meas).integrable_mul hIx (hfk.integrable h)
  have he : (fun ω => ((U (t, false) ω - 1 / 2) * f ω + (U (t, true) ω - 1 / 2) * k ω) ^ 2) =
      fun ω => (U (t, false) ω - 1 / 2) ^ 2 * (f ω * f ω) +
        (U (t, true) ω - 1 / 2) ^ 2 * (k ω * k ω) +
        2 * ((U (t, false) ω - 1 / 2) * (U (t, true) ω - 1 / 2) * (f ω * k ω)) := by
    funext ω; ring
  rw [he]
  have i3' := i3.const_mul 2
  refine ⟨(i1.add i2).add i3', ?_⟩
  have := integral_add (i1.add i2) i3'
  simp only [Pi.add_apply, Pi.mul_apply] at this
  rw [this]
  have h12 := integral_add i1 i2
  simp only [Pi.mul_apply] at h12
  rw [h12, integral_const_mul, integral_indep h (hsq false) hff.meas,
    integral_indep h (hsq true) hkk.meas, integral_indep h hx hfk.meas, centred_cross h,
    centred_sq h, centred_sq h]
  ring

/-! ### Recursions for the moments -/

variable {q : ℝ}

/-- One step, split into its mean and the noise. -/
theorem path_step (hq : c1 * (p - q) + c2 * (g - q) = 0) (u : ℕ × Bool → ℝ) (t : ℕ) :
    (scalarPath c1 c2 w p g x0 v0 u (t + 1)).1 - q =
      (1 + w - (c1 + c2) / 2) * ((scalarPath c1 c2 w p g x0 v0 u t).1 - q)
      - w * ((scalarPath c1 c2 w p g x0 v0 u t).1 - q - (scalarPath c1 c2 w p g x0 v0 u t).2)
      + ((u (t, false) - 1 / 2) * (c1 * (p - (scalarPath c1 c2 w p g x0 v0 u t).1))
        + (u (t, true) - 1 / 2) * (c2 * (g - (scalarPath c1 c2 w p g x0 v0 u t).1))) := by
  simp only [scalarPath]
  linear_combination (1 / 2) * hq

theorem path_prev (u : ℕ × Bool → ℝ) (t : ℕ) :
    (scalarPath c1 c2 w p g x0 v0 u (t + 1)).1 - q - (scalarPath c1 c2 w p g x0 v0 u (t + 1)).2 =
      (scalarPath c1 c2 w p g x0 v0 u t).1 - q := by
  simp only [scalarPath]; ring

/-- The moments at iteration `t`, for the deviation `y` from `q` and the previous deviation `x`. -/
structure IsMoments (P : Measure Ω) (y x : Ω → ℝ) (m l A B C : ℝ) : Prop where
  my : ∫ ω, y ω ∂P = m
  mx : ∫ ω, x ω ∂P = l
  yy : ∫ ω, y ω * y ω ∂P = A
  xy : ∫ ω, x ω * y ω ∂P = B
  xx : ∫ ω, x ω * x ω ∂P = C

theorem moments_psd (h : IidUniform P U) {t : ℕ} {y x : Ω → ℝ} (hy : PastBdd P U t y)
    (hx : PastBdd P U t x) {m l A B C : ℝ} (hm : IsMoments P y x m l A B C) (r s : ℝ) :
    0 ≤ r ^ 2 * C + 2 * r * s * B + s ^ 2 * A := by
  have h1 : 0 ≤ ∫ ω, (r * x ω + s * y ω) ^ 2 ∂P := integral_nonneg fun ω => sq_nonneg _
  have he : (fun ω => (r * x ω + s * y ω) ^ 2) = fun ω => r ^ 2 * (x ω * x ω) +
      2 * r * s * (x ω * y ω) + s ^ 2 * (y ω * y ω) := by funext ω; ring
  have i1 := ((hx.mul hx).integrable h).const_mul (r ^ 2)
  have i2 := ((hx.mul hy).integrable h).const_mul (2 * r * s)
  have i3 := ((hy.mul hy).integrable h).const_mul (s ^ 2)
  rw [he, integral_add (f := fun ω => r ^ 2 * (x ω * x ω) + 2 * r * s * (x ω * y ω)) (i1.add i2) i3,
    integral_add i1 i2, integral_const_mul, integral_const_mul, integral_const_mul, hm.xx, hm.xy,
    hm.yy] at h1
  exact h1

theorem moments_mean_sq (h : IidUniform P U) {t : ℕ} {y x : Ω → ℝ} (hy : PastBdd P U t y)
    {m l A B C : ℝ} (hm : IsMoments P y x m l A B C) : m ^ 2 ≤ A := by
  haveI := h.prob
  have h1 : 0 ≤ ∫ ω, (y ω - m) ^ 2 ∂P := integral_nonneg fun ω => sq_nonneg _
  have he : (fun ω => (y ω - m) ^ 2) = fun ω => y ω * y ω - 2 * m * y ω + m ^ 2 := by
    funext ω; ring
  have i1 := (hy.mul hy).integrable h
  have i2 := (hy.integrable h).const_mul (2 * m)
  rw [he, integral_add (f := fun ω => y ω * y ω - 2 * m * y ω) (i1.sub i2) (integrable_const _),
    integral_sub i1 i2, integral_const_mul, hm.yy, hm.my] at h1
  simp at h1
  linarith

variable (c1 c2 w p g x0 v0 q P U) in
/-- Deviation from `q` at iteration `t`. -/
def dev (t : ℕ) (ω : Ω) : ℝ := (scalarPath c1 c2 w p g x0 v0 (fun k => U k ω) t).1 - q

variable (c1 c2 w p g x0 v0 q P U) in
/-- Deviation from `q` one iteration earlier. -/
def devPrev (t : ℕ) (ω : Ω) : ℝ :=
  (scalarPath c1 c2 w p g x0 v0 (fun k => U k ω) t).1 - q
    - (scalarPath c1 c2 w p g x0 v0 (fun k => U k ω) t).2

theorem pastBdd_dev (h : IidUniform P U) (t : ℕ) :
    PastBdd P U t (dev U c1 c2 w p g x0 v0 q t) :=
  (pastBdd_pos h t).sub (PastBdd.const q)

theorem pastBdd_devPrev (h : IidUniform P U) (t : ℕ) :
    PastBdd P U t (devPrev U c1 c2 w p g x0 v0 q t) :=
  ((pastBdd_pos h t).sub (PastBdd.const q)).sub (pastBdd_vel h t)

theorem moments_step (h : IidUniform P U) (hq : c1 * (p - q) + c2 * (g - q) = 0) (t : ℕ)
    {m l A B C : ℝ}
    (hm : IsMoments P (dev U c1 c2 w p g x0 v0 q t) (devPrev U c1 c2 w p g x0 v0 q t) m l A B C) :
    IsMoments P (dev U c1 c2 w p g x0 v0 q (t + 1)) (devPrev U c1 c2 w p g x0 v0 q (t + 1))
      ((1 + w - (c1 + c2) / 2) * m - w * l) m
      ((1 + w - (c1 + c2) / 2) ^ 2 * A - 2 * (1 + w - (c1 + c2) / 2) * w * B + w ^ 2 * C
        + ((c1 ^ 2 * (p - q) ^ 2 + c2 ^ 2 * (g - q) ^ 2)
          - 2 * (c1 ^ 2 * (p - q) + c2 ^ 2 * (g - q)) * m + (c1 ^ 2 + c2 ^ 2) * A) / 12)
      ((1 + w - (c1 + c2) / 2) * A - w * B) A := by
  haveI := h.prob
  set y := dev U c1 c2 w p g x0 v0 q t with hyd
  set x := devPrev U c1 c2 w p g x0 v0 q t with hxd
  set L := 1 + w - (c1 + c2) / 2 with hL
  have hy : PastBdd P U t y := pastBdd_dev h t
  have hx : PastBdd P U t x := pastBdd_devPrev h t
  set f1 : Ω → ℝ := fun ω => c1 * (p - q) - c1 * y ω with hf1
  set f2 : Ω → ℝ := fun ω => c2 * (g - q) - c2 * y ω with hf2
  have b1 : PastBdd P U t f1 := (PastBdd.const _).sub ((PastBdd.const c1).mul hy)
  have b2 : PastBdd P U t f2 := (PastBdd.const _).sub ((PastBdd.const c2).mul hy)
  set nz : Ω → ℝ := fun ω => (U (t, false) ω - 1 / 2) * f1 ω + (U (t, true) ω - 1 / 2) * f2 ω
    with hnz
  have hstep : dev U c1 c2 w p g x0 v0 q (t + 1) = fun ω => (L * y ω - w * x ω) + nz ω := by
    funext ω
    have := path_step (w := w) (x0 := x0) (v0 := v0) hq (fun k => U k ω) t
    simp only [dev, hyd, hxd, devPrev, hnz, hf1, hf2]
    rw [this]; simp only [hL]; ring
  have hprev : devPrev U c1 c2 w p g x0 v0 q (t + 1) = y := by
    funext ω
    exact path_prev (fun k => U k ω) t
  -- the noise is orthogonal to the past
  have hno : ∀ Z : Ω → ℝ, PastBdd P U t Z → Integrable (fun ω => nz ω * Z ω) P ∧
      ∫ ω, nz ω * Z ω ∂P = 0 := by
    intro Z hZ
    have e1 := centred_mul h false (b1.mul hZ)
    have e2 := centred_mul h true (b2.mul hZ)
    have he : (fun ω => nz ω * Z ω) = fun ω => (U (t, false) ω - 1 / 2) * (f1 ω * Z ω) +
        (U (t, true) ω - 1 / 2) * (f2 ω * Z ω) := by funext ω; simp only [hnz]; ring
    rw [he]
    exact ⟨e1.1.add e2.1, by rw [integral_add e1.1 e2.1, e1.2, e2.2, add_zero]⟩
  have hn1 := hno (fun _ => 1) (PastBdd.const 1)
  simp only [mul_one] at hn1
  set D : Ω → ℝ := fun ω => L * y ω - w * x ω with hD
  have bD : PastBdd P U t D := ((PastBdd.const L).mul hy).sub ((PastBdd.const w).mul hx)
  have hDI : ∫ ω, D ω ∂P = L * m - w * l := by
    simp only [hD]
    rw [integral_sub ((hy.integrable h).const_mul L) ((hx.integrable h).const_mul w),
      integral_const_mul, integral_const_mul, hm.my, hm.mx]
  have iyy := (hy.mul hy).integrable h
  have ixy := (hx.mul hy).integrable h
  have ixx := (hx.mul hx).integrable h
  have hDD : ∫ ω, D ω * D ω ∂P = L ^ 2 * A - 2 * L * w * B + w ^ 2 * C := by
    have he : (fun ω => D ω * D ω) = fun ω => L ^ 2 * (y ω * y ω) - 2 * L * w * (x ω * y ω) +
        w ^ 2 * (x ω * x ω) := by funext ω; simp only [hD]; ring
    rw [he, integral_add (f := fun ω => L ^ 2 * (y ω * y ω) - 2 * L * w * (x ω * y ω))
      ((iyy.const_mul _).sub (ixy.const_mul _)) (ixx.const_mul _),
      integral_sub (iyy.const_mul _) (ixy.const_mul _), integral_const_mul, integral_const_mul,
      integral_const_mul, hm.yy, hm.xy, hm.xx]
  have hyD : ∫ ω, y ω * D ω ∂P = L * A - w * B := by
    have he : (fun ω => y ω * D ω) = fun ω => L * (y ω * y ω) - w * (x ω * y ω) := by
      funext ω; simp only [hD]; ring
    rw [he, integral_sub (iyy.const_mul _) (ixy.const_mul _), integral_const_mul,
      integral_const_mul, hm.yy, hm.xy]
  have hsqf : ∀ a b : ℝ, ∫ ω, (a - b * y ω) * (a - b * y ω) ∂P =
      a ^ 2 - 2 * a * b * m + b ^ 2 * A := by
    intro a b
    have he : (fun ω => (a - b * y ω) * (a - b * y ω)) = fun ω => b ^ 2 * (y ω * y ω) -
        2 * a * b * y ω + a ^ 2 := by funext ω; ring
    rw [he, integral_add (f := fun ω => b ^ 2 * (y ω * y ω) - 2 * a * b * y ω)
      ((iyy.const_mul _).sub ((hy.integrable h).const_mul _)) (integrable_const _),
      integral_sub (iyy.const_mul _) ((hy.integrable h).const_mul _), integral_const_mul,
      integral_const_mul, hm.yy, hm.my]
    simp; ring
  have hnn := noise_sq h b1 b2
  have hnn1 : Integrable (fun ω => nz ω ^ 2) P := hnn.1
  have hnn2 : ∫ ω, nz ω ^ 2 ∂P = ((c1 ^ 2 * (p - q) ^ 2 + c2 ^ 2 * (g - q) ^ 2)
          - 2 * (c1 ^ 2 * (p - q) + c2 ^ 2 * (g - q)) * m + (c1 ^ 2 + c2 ^ 2) * A) / 12 := by
    have := hnn.2
    simp only [hnz, hf1, hf2] at this ⊢
    rw [this, hsqf, hsqf]; ring
  rw [hstep, hprev]
  refine ⟨?_, hm.my, ?_, ?_, hm.yy⟩
  · rw [integral_add (f := D) (bD.integrable h) hn1.1, hDI, hn1.2, add_zero]
  · have he : (fun ω => (D ω + nz ω) * (D ω + nz ω)) = fun ω => D ω * D ω +
        2 * (nz ω * D ω) + nz ω ^ 2 := by funext ω; ring
    have e1 := hno D bD
    have iDD := (bD.mul bD).integrable h
    have : ∫ ω, (D ω + nz ω) * (D ω + nz ω) ∂P = L ^ 2 * A - 2 * L * w * B + w ^ 2 * C
        + ((c1 ^ 2 * (p - q) ^ 2 + c2 ^ 2 * (g - q) ^ 2)
          - 2 * (c1 ^ 2 * (p - q) + c2 ^ 2 * (g - q)) * m + (c1 ^ 2 + c2 ^ 2) * A) / 12 := by
      rw [he, integral_add (f := fun ω => D ω * D ω + 2 * (nz ω * D ω))
        (iDD.add (e1.1.const_mul 2)) hnn1, integral_add iDD (e1.1.const_mul 2),
        integral_const_mul, e1.2, hDD, hnn2]
      ring
    exact this
  · have e1 := hno y hy
    have he : (fun ω => y ω * (D ω + nz ω)) = fun ω => y ω * D ω + nz ω * y ω := by
      funext ω; ring
    have : ∫ ω, y ω * (D ω + nz ω) ∂P = L * A - w * B := by
      rw [he, integral_add ((hy.mul bD).integrable h) e1.1, e1.2, hyD, add_zero]
    exact this

end

end PySwarms
