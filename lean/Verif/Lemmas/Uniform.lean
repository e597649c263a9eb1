import Verif.Lemmas.Chance
import Mathlib.Probability.Independence.InfinitePi

/-! Probabilities of boxes under independent uniform samples.  Helper lemmas. -/

open MeasureTheory ProbabilityTheory

namespace PySwarms

section
variable {Ω : Type*} [MeasurableSpace Ω] {P : Measure Ω} {ι : Type*} {U : ι → Ω → ℝ}

theorem unitLaw_Icc {a b : ℝ} (ha : 0 ≤ a) (hb : b ≤ 1) :
    unitLaw (Set.Icc a b) = ENNReal.ofReal (b - a) := by
  rw [unitLaw, Measure.restrict_apply measurableSet_Icc,
    Set.inter_eq_left.2 (Set.Icc_subset_Icc ha hb), Real.volume_Icc]

theorem unitLaw_Iio {a : ℝ} (ha : 0 ≤ a) (hb : a ≤ 1) :
    unitLaw (Set.Iio a) = ENNReal.ofReal a := by
  rw [unitLaw, Measure.restrict_apply measurableSet_Iio]
  have : Set.Iio a ∩ Set.Icc 0 1 = Set.Ico 0 a := by
    ext x
    simp only [Set.mem_inter_iff, Set.mem_Iio, Set.mem_Icc, Set.mem_Ico]
    constructor
    · rintro ⟨h1, h2, h3⟩; exact ⟨h2, h1⟩
    · rintro ⟨h1, h2⟩; exact ⟨h2, h1, by linarith⟩
  rw [this, Real.volume_Ico, sub_zero]

theorem unitLaw_Ici {a : ℝ} (ha : 0 ≤ a) (hb : a ≤ 1) :
    unitLaw (Set.Ici a) = ENNReal.ofReal (1 - a) := by
  rw [unitLaw, Measure.restrict_apply measurableSet_Ici]
  have : Set.Ici a ∩ Set.Icc 0 1 = Set.Icc a 1 := by
    ext x
    simp only [Set.mem_inter_iff, Set.mem_Ici, Set.mem_Icc]
    constructor
    · rintro ⟨h1, h2, h3⟩; exact ⟨h1, h3⟩
    · rintro ⟨h1, h2⟩; exact ⟨h1, by linarith, h2⟩
  rw [this, Real.volume_Icc]

theorem IidUniform.preimage (h : IidUniform P U) (k : ι) {S : Set ℝ} (hS : MeasurableSet S) :
    P (U k ⁻¹' S) = unitLaw S := by
  rw [← h.law k, Measure.map_apply (h.meas k) hS]

theorem IidUniform.integrable (h : IidUniform P U) (k : ι) : Integrable (U k) P := by
  haveI := h.indep.isProbabilityMeasure
  exact integrable_of_bdd (h.meas _) ⟨1, by
    filter_upwards [h.ae_mem k] with ω hω
    rw [abs_of_nonneg hω.1]; exact hω.2⟩

theorem IidUniform.integrable_sq (h : IidUniform P U) (k : ι) :
    Integrable (fun ω => U k ω ^ 2) P := by
  haveI := h.indep.isProbabilityMeasure
  exact integrable_of_bdd ((h.meas _).pow_const 2) ⟨1, by
    filter_upwards [h.ae_mem k] with ω hω
    rw [abs_of_nonneg (by positivity)]; exact pow_le_one₀ hω.1 hω.2⟩

/-- Mean and variance of a combination of two samples. -/
theorem IidUniform.two (h : IidUniform P U) {k l : ι} (hkl : k ≠ l) (m a b : ℝ) :
    ∫ ω, (m + a * U k ω + b * U l ω) ∂P = m + (a + b) / 2 ∧
    ∫ ω, (m + a * U k ω + b * U l ω - (m + (a + b) / 2)) ^ 2 ∂P = (a ^ 2 + b ^ 2) / 12 := by
  haveI := h.indep.isProbabilityMeasure
  have i1 := h.integrable k
  have i2 := h.integrable l
  have s1 := h.integrable_sq k
  have s2 := h.integrable_sq l
  have hi : IndepFun (U k) (U l) P := h.indep.indepFun hkl
  have i12 : Integrable (fun ω => U k ω * U l ω) P := hi.integrable_mul i1 i2
  have e12 : ∫ ω, U k ω * U l ω ∂P = 1 / 4 := by
    rw [hi.integral_fun_mul_eq_mul_integral (h.meas _).aestronglyMeasurable
      (h.meas _).aestronglyMeasurable, h.mean, h.mean]; norm_num
  have j1 : ∀ e : ℝ, Integrable (fun ω => e * U k ω) P := fun e => i1.const_mul e
  have j2 : ∀ e : ℝ, Integrable (fun ω => e * U l ω) P := fun e => i2.const_mul e
  constructor
  · have jm : Integrable (fun ω => m + a * U k ω) P := (integrable_const m).add (j1 a)
    rw [integral_add jm (j2 b), integral_add (integrable_const _) (j1 a), integral_const_mul,
      integral_const_mul, h.mean, h.mean]
    simp; ring
  · have he : (fun ω => (m + a * U k ω + b * U l ω - (m + (a + b) / 2)) ^ 2) =
        fun ω => ((a + b) ^ 2 / 4 + a ^ 2 * U k ω ^ 2) + (b ^ 2 * U l ω ^ 2
          + (2 * a * b) * (U k ω * U l ω)) + ((-(a * (a + b))) * U k ω + (-(b * (a + b))) * U l ω) := by
      funext ω; ring
    have t1 : Integrable (fun ω => a ^ 2 * U k ω ^ 2) P := s1.const_mul _
    have t2 : Integrable (fun ω => b ^ 2 * U l ω ^ 2) P := s2.const_mul _
    have t3 : Integrable (fun ω => (2 * a * b) * (U k ω * U l ω)) P := i12.const_mul _
    have t4 : Integrable (fun ω => (a + b) ^ 2 / 4 + a ^ 2 * U k ω ^ 2) P :=
      (integrable_const _).add t1
    have t5 : Integrable (fun ω => b ^ 2 * U l ω ^ 2 + (2 * a * b) * (U k ω * U l ω)) P := t2.add t3
    have t6 : Integrable (fun ω => ((a + b) ^ 2 / 4 + a ^ 2 * U k ω ^ 2) + (b ^ 2 * U l ω ^ 2
          + (2 * a * b) * (U k ω * U l ω))) P := t4.add t5
    have t7 : Integrable (fun ω => (-(a * (a + b))) * U k ω + (-(b * (a + b))) * U l ω) P :=
      (j1 _).add (j2 _)
    rw [he, integral_add t6 t7, integral_add t4 t5, integral_add (integrable_const _) t1,
      integral_add t2 t3, integral_add (j1 _) (j2 _)]
    simp only [integral_const_mul, h.mean, h.second, e12, integral_const, probReal_univ, one_smul]
    ring

/-- Independent uniform samples of intervals fall into given parts with the product of the
relative lengths. -/
theorem IidUniform.affine_box [Fintype ι] (h : IidUniform P U) (a b lo hi : ι → ℝ)
    (hab : ∀ k, a k < b k) (h1 : ∀ k, a k ≤ lo k) (h2 : ∀ k, lo k ≤ hi k) (h3 : ∀ k, hi k ≤ b k) :
    P {ω | ∀ k, lo k ≤ a k + (b k - a k) * U k ω ∧ a k + (b k - a k) * U k ω ≤ hi k} =
      ENNReal.ofReal (∏ k, (hi k - lo k) / (b k - a k)) := by
  have hset : {ω | ∀ k, lo k ≤ a k + (b k - a k) * U k ω ∧ a k + (b k - a k) * U k ω ≤ hi k} =
      ⋂ k ∈ (Finset.univ : Finset ι),
        U k ⁻¹' Set.Icc ((lo k - a k) / (b k - a k)) ((hi k - a k) / (b k - a k)) := by
    ext ω
    simp only [Set.mem_setOf_eq, Set.mem_iInter, Finset.mem_univ, forall_true_left,
      Set.mem_preimage, Set.mem_Icc]
    refine forall_congr' fun k => ?_
    have hw : 0 < b k - a k := sub_pos.2 (hab k)
    rw [div_le_iff₀ hw, le_div_iff₀ hw]
    constructor <;> rintro ⟨h1, h2⟩ <;> constructor <;> linarith
  rw [hset, h.indep.measure_inter_preimage_eq_mul Finset.univ
    (sets := fun k => Set.Icc ((lo k - a k) / (b k - a k)) ((hi k - a k) / (b k - a k)))
    fun _ _ => measurableSet_Icc]
  rw [ENNReal.ofReal_prod_of_nonneg]
  · refine Finset.prod_congr rfl fun k _ => ?_
    have hw : 0 < b k - a k := sub_pos.2 (hab k)
    rw [h.preimage k measurableSet_Icc, unitLaw_Icc]
    · congr 1; field_simp; ring
    · exact div_nonneg (sub_nonneg.2 (h1 k)) hw.le
    · rw [div_le_one hw]; linarith [h3 k]
  · intro k _
    exact div_nonneg (sub_nonneg.2 (h2 k)) (sub_pos.2 (hab k)).le

end

section
variable {Ω : Type*} [MeasurableSpace Ω] {P : Measure Ω} {ι κ : Type*} {U : ι × κ → Ω → ℝ}

theorem IidUniform.row (h : IidUniform P U) (i : ι) : IidUniform P fun j => U (i, j) :=
  ⟨fun j => h.meas (i, j), fun j => h.law (i, j),
    h.indep.precomp (g := fun j => (i, j)) fun _ _ e => (Prod.mk.inj e).2⟩

/-- The rows of a matrix of independent samples are independent. -/
theorem IidUniform.rows (h : IidUniform P U) :
    iIndepFun (fun i ω j => U (i, j) ω) P := by
  haveI := h.indep.isProbabilityMeasure
  have hrow : ∀ i, P.map (fun ω j => U (i, j) ω) = Measure.infinitePi fun _ : κ => unitLaw := by
    intro i
    rw [(h.row i).indep.map_fun_eq_infinitePi_map (h.row i).meas]
    exact congrArg Measure.infinitePi (funext (h.row i).law)
  have hall : P.map (fun ω k => U k ω) = Measure.infinitePi fun _ : ι × κ => unitLaw := by
    rw [h.indep.map_fun_eq_infinitePi_map h.meas]
    exact congrArg Measure.infinitePi (funext h.law)
  have hm : ∀ i, Measurable fun ω j => U (i, j) ω :=
    fun i => measurable_pi_iff.2 fun j => h.meas (i, j)
  rw [iIndepFun_iff_map_fun_eq_infinitePi_map hm]
  have hc := Measure.infinitePi_map_curry (ι := ι) (κ := κ) (X := ℝ) (fun _ _ => unitLaw)
  simp only [hrow]
  rw [← hc, ← hall, Measure.map_map (by fun_prop) (measurable_pi_iff.2 h.meas)]
  rfl

/-- No row falls into the box. -/
theorem IidUniform.miss {n d : ℕ} {U : Fin n × Fin d → Ω → ℝ} (h : IidUniform P U)
    {b box : Bounds d ℝ} (hb : ProperBounds b) (hs : SubBox box b) :
    P {ω | ∀ i, ¬ box.Contains fun j => b.1 j + (b.2 j - b.1 j) * U (i, j) ω} =
      ENNReal.ofReal ((1 - share box b) ^ n) := by
  haveI := h.indep.isProbabilityMeasure
  have hrow : ∀ i, P {ω | box.Contains fun j => b.1 j + (b.2 j - b.1 j) * U (i, j) ω} =
      ENNReal.ofReal (share box b) := fun i =>
    (h.row i).affine_box b.1 b.2 box.1 box.2 hb (fun j => (hs j).1) (fun j => (hs j).2.1)
      fun j => (hs j).2.2
  let S : Set (Fin d → ℝ) := {u | box.Contains fun j => b.1 j + (b.2 j - b.1 j) * u j}
  have hS : MeasurableSet S := by
    have : S = ⋂ j, {u | box.1 j ≤ b.1 j + (b.2 j - b.1 j) * u j ∧
        b.1 j + (b.2 j - b.1 j) * u j ≤ box.2 j} := by
      ext u; simp [S, Bounds.Contains]
    rw [this]
    refine MeasurableSet.iInter fun j => ?_
    have hm : Measurable fun u : Fin d → ℝ => b.1 j + (b.2 j - b.1 j) * u j := by fun_prop
    exact (measurableSet_le measurable_const hm).inter (measurableSet_le hm measurable_const)
  have hset : {ω | ∀ i, ¬ box.Contains fun j => b.1 j + (b.2 j - b.1 j) * U (i, j) ω} =
      ⋂ i ∈ (Finset.univ : Finset (Fin n)), (fun ω j => U (i, j) ω) ⁻¹' Sᶜ := by
    ext ω; simp [S]
  rw [hset, h.rows.measure_inter_preimage_eq_mul Finset.univ (sets := fun _ => Sᶜ)
    fun _ _ => hS.compl]
  have hle : share box b ≤ 1 := by
    refine Finset.prod_le_one (fun j _ => ?_) fun j _ => ?_
    · exact div_nonneg (sub_nonneg.2 (hs j).2.1) (sub_pos.2 (hb j)).le
    · rw [div_le_one (sub_pos.2 (hb j))]; linarith [(hs j).1, (hs j).2.2]
  have hnn : 0 ≤ share box b :=
    Finset.prod_nonneg fun j _ => div_nonneg (sub_nonneg.2 (hs j).2.1) (sub_pos.2 (hb j)).le
  have hcompl : ∀ i, P ((fun ω j => U (i, j) ω) ⁻¹' Sᶜ) = ENNReal.ofReal (1 - share box b) := by
    intro i
    have hm : Measurable fun ω j => U (i, j) ω := measurable_pi_iff.2 fun j => h.meas (i, j)
    rw [Set.preimage_compl, prob_compl_eq_one_sub (hm hS)]
    have : (fun ω j => U (i, j) ω) ⁻¹' S =
        {ω | box.Contains fun j => b.1 j + (b.2 j - b.1 j) * U (i, j) ω} := rfl
    rw [this, hrow i, ENNReal.ofReal_sub _ hnn, ENNReal.ofReal_one]
  simp only [hcompl, Finset.prod_const, Finset.card_univ, Fintype.card_fin]
  rw [ENNReal.ofReal_pow (by linarith)]

end

end PySwarms
