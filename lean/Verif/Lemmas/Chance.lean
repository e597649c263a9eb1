import Verif.SpecChance
import Verif.Lemmas.Recurrence
import Mathlib.Probability.Independence.Integration
import Mathlib.MeasureTheory.Integral.IntervalIntegral.Basic
import Mathlib.Analysis.SpecialFunctions.Integrals.Basic

/-! One coordinate of a particle whose bests rest, as a stochastic process.  Helper lemmas. -/

open MeasureTheory ProbabilityTheory Filter

namespace PySwarms

/-- Position and velocity of one coordinate; own best `p`, common best `g`. -/
def scalarPath (c1 c2 w p g x0 v0 : ℝ) (u : ℕ × Bool → ℝ) : ℕ → ℝ × ℝ
  | 0 => (x0, v0)
  | t + 1 =>
    let x := (scalarPath c1 c2 w p g x0 v0 u t).1
    let v := (scalarPath c1 c2 w p g x0 v0 u t).2
    let v' := w * v + c1 * u (t, false) * (p - x) + c2 * u (t, true) * (g - x)
    (x + v', v')

instance : IsProbabilityMeasure unitLaw := ⟨by simp [unitLaw]⟩

theorem integral_unitLaw (f : ℝ → ℝ) : ∫ x, f x ∂unitLaw = ∫ x in (0 : ℝ)..1, f x := by
  rw [unitLaw, intervalIntegral.integral_of_le zero_le_one, integral_Icc_eq_integral_Ioc]

section
variable {Ω : Type*} [MeasurableSpace Ω] {P : Measure Ω} {ι : Type*} {U : ι → Ω → ℝ}

theorem IidUniform.prob (h : IidUniform P U) [Nonempty ι] : IsProbabilityMeasure P :=
  h.indep.isProbabilityMeasure

theorem IidUniform.ae_mem (h : IidUniform P U) (k : ι) : ∀ᵐ ω ∂P, U k ω ∈ Set.Icc (0 : ℝ) 1 := by
  have : ∀ᵐ x ∂(P.map (U k)), x ∈ Set.Icc (0 : ℝ) 1 := by
    rw [h.law k, unitLaw]; exact ae_restrict_mem measurableSet_Icc
  exact ae_of_ae_map (h.meas k).aemeasurable this

theorem IidUniform.mean (h : IidUniform P U) (k : ι) : ∫ ω, U k ω ∂P = 1 / 2 := by
  have := integral_map (μ := P) (h.meas k).aemeasurable (f := fun x => x)
    measurable_id.aestronglyMeasurable
  rw [← this, h.law k, integral_unitLaw]
  simp [integral_id]

theorem IidUniform.second (h : IidUniform P U) (k : ι) : ∫ ω, U k ω ^ 2 ∂P = 1 / 3 := by
  have := integral_map (μ := P) (h.meas k).aemeasurable (f := fun x => x ^ 2)
    (measurable_id.pow_const 2).aestronglyMeasurable
  rw [← this, h.law k, integral_unitLaw]
  simp [integral_pow]
  norm_num

theorem integrable_of_bdd [IsFiniteMeasure P] {f : Ω → ℝ} (hf : Measurable f)
    (hb : ∃ B : ℝ, ∀ᵐ ω ∂P, |f ω| ≤ B) : Integrable f P := by
  obtain ⟨B, hB⟩ := hb
  exact Integrable.of_bound hf.aestronglyMeasurable B hB

end

/-! ### The process -/

section
variable {Ω : Type*} [mΩ : MeasurableSpace Ω] {P : Measure Ω} {U : ℕ × Bool → Ω → ℝ}

/-- What has been drawn before iteration `t`. -/
def past (U : ℕ × Bool → Ω → ℝ) (t : ℕ) : MeasurableSpace Ω :=
  ⨆ k ∈ {k : ℕ × Bool | k.1 < t}, MeasurableSpace.comap (U k) inferInstance

/-- What is drawn in iteration `t`. -/
def present (U : ℕ × Bool → Ω → ℝ) (t : ℕ) : MeasurableSpace Ω :=
  ⨆ k ∈ {k : ℕ × Bool | k.1 = t}, MeasurableSpace.comap (U k) inferInstance

theorem past_le (h : IidUniform P U) (t : ℕ) : past U t ≤ mΩ := by
  refine iSup₂_le fun k _ => ?_
  exact (h.meas k).comap_le

theorem past_mono {t t' : ℕ} (h : t ≤ t') : past U t ≤ past U t' := by
  refine iSup₂_le fun k hk => ?_
  exact le_iSup₂_of_le k (lt_of_lt_of_le hk h) le_rfl

theorem measurable_past {k : ℕ × Bool} {t : ℕ} (hk : k.1 < t) : Measurable[past U t] (U k) := by
  rw [measurable_iff_comap_le]
  exact le_iSup₂_of_le k hk le_rfl

theorem measurable_present (t : ℕ) (b : Bool) : Measurable[present U t] (U (t, b)) := by
  rw [measurable_iff_comap_le]
  exact le_iSup₂_of_le (t, b) rfl le_rfl

theorem past_indep (h : IidUniform P U) (t : ℕ) : Indep (present U t) (past U t) P := by
  refine indep_iSup_of_disjoint (fun k => (h.meas k).comap_le) h.indep.iIndep ?_
  rw [Set.disjoint_left]
  intro k h1 h2
  simp only [Set.mem_setOf_eq] at h1 h2
  omega

theorem indepFun_of (h : IidUniform P U) {t : ℕ} {f g : Ω → ℝ} (hf : Measurable[present U t] f)
    (hg : Measurable[past U t] g) : IndepFun f g P := by
  rw [IndepFun_iff_Indep]
  exact indep_of_indep_of_le_left
    (indep_of_indep_of_le_right (past_indep h t) (measurable_iff_comap_le.1 hg))
    (measurable_iff_comap_le.1 hf)

theorem integral_indep (h : IidUniform P U) {t : ℕ} {f g : Ω → ℝ}
    (hf : Measurable[present U t] f) (hg : Measurable[past U t] g) :
    ∫ ω, f ω * g ω ∂P = (∫ ω, f ω ∂P) * ∫ ω, g ω ∂P := by
  have hp : present U t ≤ mΩ := iSup₂_le fun k _ => (h.meas k).comap_le
  exact (indepFun_of h hf hg).integral_fun_mul_eq_mul_integral
    (hf.mono hp le_rfl).aestronglyMeasurable (hg.mono (past_le h t) le_rfl).aestronglyMeasurable

variable {c1 c2 w p g x0 v0 : ℝ}

theorem path_measurable (t : ℕ) :
    Measurable[past U t] (fun ω => (scalarPath c1 c2 w p g x0 v0 (fun k => U k ω) t).1) ∧
    Measurable[past U t] (fun ω => (scalarPath c1 c2 w p g x0 v0 (fun k => U k ω) t).2) := by
  induction t with
  | zero => exact ⟨measurable_const, measurable_const⟩
  | succ t ih =>
    have hx := ih.1.mono (past_mono (U := U) (Nat.le_succ t)) le_rfl
    have hv := ih.2.mono (past_mono (U := U) (Nat.le_succ t)) le_rfl
    have h1 := measurable_past (U := U) (k := (t, false)) (Nat.lt_succ_self t)
    have h2 := measurable_past (U := U) (k := (t, true)) (Nat.lt_succ_self t)
    have hv' : Measurable[past U (t + 1)] (fun ω =>
        (scalarPath c1 c2 w p g x0 v0 (fun k => U k ω) (t + 1)).2) := by
      simp only [scalarPath]
      exact ((hv.const_mul w).add ((h1.const_mul c1).mul (hx.const_sub p))).add
        ((h2.const_mul c2).mul (hx.const_sub g))
    refine ⟨?_, hv'⟩
    exact hx.add hv'

theorem path_bdd (h : IidUniform P U) (t : ℕ) : ∃ B : ℝ, ∀ᵐ ω ∂P,
    |(scalarPath c1 c2 w p g x0 v0 (fun k => U k ω) t).1| ≤ B ∧
    |(scalarPath c1 c2 w p g x0 v0 (fun k => U k ω) t).2| ≤ B := by
  induction t with
  | zero => exact ⟨max |x0| |v0|, ae_of_all _ fun ω => ⟨le_max_left _ _, le_max_right _ _⟩⟩
  | succ t ih =>
    obtain ⟨B, hB⟩ := ih
    refine ⟨B + (|w| * B + |c1| * (|p| + B) + |c2| * (|g| + B)), ?_⟩
    filter_upwards [hB, h.ae_mem (t, false), h.ae_mem (t, true)] with ω hω h1 h2
    have hB0 : 0 ≤ B := (abs_nonneg _).trans hω.1
    have hv : |(scalarPath c1 c2 w p g x0 v0 (fun k => U k ω) (t + 1)).2| ≤
        |w| * B + |c1| * (|p| + B) + |c2| * (|g| + B) := by
      simp only [scalarPath]
      set x := (scalarPath c1 c2 w p g x0 v0 (fun k => U k ω) t).1
      set v := (scalarPath c1 c2 w p g x0 v0 (fun k => U k ω) t).2
      have e1 : |c1 * U (t, false) ω * (p - x)| ≤ |c1| * (|p| + B) := by
        rw [abs_mul, abs_mul, abs_of_nonneg h1.1]
        have : |p - x| ≤ |p| + B := (abs_sub _ _).trans (by linarith [hω.1])
        calc |c1| * U (t, false) ω * |p - x| ≤ |c1| * 1 * (|p| + B) := by
              gcongr; exact h1.2
          _ = _ := by ring
      have e2 : |c2 * U (t, true) ω * (g - x)| ≤ |c2| * (|g| + B) := by
        rw [abs_mul, abs_mul, abs_of_nonneg h2.1]
        have : |g - x| ≤ |g| + B := (abs_sub _ _).trans (by linarith [hω.1])
        calc |c2| * U (t, true) ω * |g - x| ≤ |c2| * 1 * (|g| + B) := by
              gcongr; exact h2.2
          _ = _ := by ring
      have e3 : |w * v| ≤ |w| * B := by rw [abs_mul]; gcongr; exact hω.2
      exact (abs_add_le _ _).trans (add_le_add ((abs_add_le _ _).trans (add_le_add e3 e1)) e2)
    refine ⟨?_, hv.trans (by linarith)⟩
    have : (scalarPath c1 c2 w p g x0 v0 (fun k => U k ω) (t + 1)).1 =
        (scalarPath c1 c2 w p g x0 v0 (fun k => U k ω) t).1 +
        (scalarPath c1 c2 w p g x0 v0 (fun k => U k ω) (t + 1)).2 := rfl
    rw [this]
    exact (abs_add_le _ _).trans (add_le_add hω.1 hv)

end

end PySwarms
