import Verif.Props.Restart
import Verif.Props.BinarySearch

/-!
# C119 for BinaryPSO: restarting finds the best bit string
-/

open MeasureTheory ProbabilityTheory

set_option linter.unusedSectionVars false

namespace PySwarms

variable {n d : ℕ} {Ω : Type*} [MeasurableSpace Ω] {P : Measure Ω}

/-- The random variables `U k` are independent fair bits: the ideal `np.random.randint(2, size=…)`. -/
structure FairBits {ι : Type*} (P : Measure Ω) (U : ι → Ω → Bool) : Prop where
  meas : ∀ k, Measurable (U k)
  half : ∀ k b, P {ω | U k ω = b} = 1 / 2
  indep : iIndepFun U P

/-- The rows of a matrix of independent variables are independent. -/
theorem indep_rows {ι κ β : Type*} [MeasurableSpace β] {U : ι × κ → Ω → β}
    (hm : ∀ k, Measurable (U k)) (h : iIndepFun U P) : iIndepFun (fun i ω j => U (i, j) ω) P := by
  have := h.isProbabilityMeasure
  have : ∀ k, IsProbabilityMeasure (P.map (U k)) := fun k =>
    Measure.isProbabilityMeasure_map (hm k).aemeasurable
  have hrow : ∀ i, P.map (fun ω j => U (i, j) ω) =
      Measure.infinitePi fun j : κ => P.map (U (i, j)) := by
    intro i
    have hi : iIndepFun (fun j => U (i, j)) P :=
      h.precomp (g := fun j => (i, j)) fun _ _ e => (Prod.mk.inj e).2
    rw [hi.map_fun_eq_infinitePi_map fun j => hm (i, j)]
  have hall := h.map_fun_eq_infinitePi_map hm
  have hmr : ∀ i, Measurable fun ω j => U (i, j) ω :=
    fun i => measurable_pi_iff.2 fun j => hm (i, j)
  rw [iIndepFun_iff_map_fun_eq_infinitePi_map hmr]
  have hc := Measure.infinitePi_map_curry (ι := ι) (κ := κ) (X := β) (fun i j => P.map (U (i, j)))
  simp only [hrow]
  rw [← hc, ← hall, Measure.map_map (by fun_prop) (measurable_pi_iff.2 hm)]
  rfl

/-- The probability that none of `m` rows of `d` fair bits is the string `bits`. -/
theorem FairBits.miss {m : ℕ} {U : Fin m × Fin d → Ω → Bool} (h : FairBits P U)
    (bits : Fin d → Bool) :
    P {ω | ∀ i, ¬ (∀ j, U (i, j) ω = bits j)} = ENNReal.ofReal ((1 - (1 / 2) ^ d) ^ m) := by
  have := h.indep.isProbabilityMeasure
  have hrow : ∀ i, P ((fun ω j => U (i, j) ω) ⁻¹' {bits}) = ENNReal.ofReal ((1 / 2) ^ d) := by
    intro i
    have hi : iIndepFun (fun j => U (i, j)) P :=
      h.indep.precomp (g := fun j => (i, j)) fun _ _ e => (Prod.mk.inj e).2
    have hset : (fun ω j => U (i, j) ω) ⁻¹' {bits} =
        ⋂ j ∈ (Finset.univ : Finset (Fin d)), U (i, j) ⁻¹' {bits j} := by
      ext ω; simp [funext_iff]
    rw [hset, hi.measure_inter_preimage_eq_mul Finset.univ (sets := fun j => {bits j})
      fun _ _ => measurableSet_singleton _]
    have : ∀ j, P (U (i, j) ⁻¹' {bits j}) = 1 / 2 := fun j => h.half (i, j) (bits j)
    simp only [this, Finset.prod_const, Finset.card_univ, Fintype.card_fin]
    rw [ENNReal.ofReal_pow (by norm_num)]
    congr 1
    rw [ENNReal.ofReal_div_of_pos (by norm_num)]
    simp
  have hle : ((1 / 2 : ℝ)) ^ d ≤ 1 := pow_le_one₀ (by norm_num) (by norm_num)
  have hset : {ω | ∀ i, ¬ (∀ j, U (i, j) ω = bits j)} =
      ⋂ i ∈ (Finset.univ : Finset (Fin m)), (fun ω j => U (i, j) ω) ⁻¹' {bits}ᶜ := by
    ext ω; simp [funext_iff]
  rw [hset, (indep_rows h.meas h.indep).measure_inter_preimage_eq_mul Finset.univ
    (sets := fun _ => {bits}ᶜ) fun _ _ => (measurableSet_singleton _).compl]
  have hcompl : ∀ i, P ((fun ω j => U (i, j) ω) ⁻¹' {bits}ᶜ) =
      ENNReal.ofReal (1 - (1 / 2) ^ d) := by
    intro i
    have hm : Measurable fun ω j => U (i, j) ω := measurable_pi_iff.2 fun j => h.meas (i, j)
    rw [Set.preimage_compl, prob_compl_eq_one_sub (hm (measurableSet_singleton _)), hrow i,
      ENNReal.ofReal_sub _ (by positivity), ENNReal.ofReal_one]
  simp only [hcompl, Finset.prod_const, Finset.card_univ, Fintype.card_fin]
  rw [ENNReal.ofReal_pow (by linarith)]

theorem resetSwarm_bitString {cfg : Config n d ℝ} (hk : cfg.kind = .binary) (hi : cfg.initPos = none)
    (r : InitDraw n d ℝ) : ∃ sw, resetSwarm cfg r = .ok sw ∧
      ∀ i, sw.position i = bitString (r.bits i) := by
  have hb : cfg.isBinary = true := by unfold Config.isBinary; rw [hk]
  unfold resetSwarm createSwarm
  simp only [hb, hi, generateDiscreteSwarm, if_true]
  exact ⟨_, rfl, fun i => rfl⟩

/-- C119: for every bit string, the probability that `R` rounds `reset(); optimize(f, iters)` of a
BinaryPSO all return, and all return a position worse than that string, is at most
`(1 - 2^(-dimensions))^(n_particles * R)`: with any coefficients, any (or no) clamp, any neighbours
and whatever else is drawn. -/
theorem C119_binary {cfg : Config n d ℝ} (hk : cfg.kind = .binary) (hi : cfg.initPos = none)
    (s : Ω → Opt n d ℝ) (r : Ω → ℕ → Round n d) (hit : ∀ ω t, 1 ≤ (r ω t).iters)
    (hU : FairBits P fun (k : ℕ × Fin n × Fin d) ω => (r ω k.1).init.bits k.2.1 k.2.2)
    (f : Vec d ℝ → ℝ) (bits : Fin d → Bool) (R : ℕ) :
    P {ω | ∀ t < R, ¬ Raises (roundResult cfg f (r ω) (s ω) t) ∧
        ¬ Finds f (f (bitString bits)) (roundResult cfg f (r ω) (s ω) t)} ≤
      ENNReal.ofReal ((1 - (1 / 2) ^ d) ^ (n * R)) := by
  let e : Fin (n * R) → Fin n × Fin R := finProdFinEquiv.symm
  have he : Function.Injective e := finProdFinEquiv.symm.injective
  have hU' : FairBits P fun (k : Fin (n * R) × Fin d) ω =>
      (r ω ((e k.1).2 : ℕ)).init.bits (e k.1).1 k.2 := by
    refine ⟨fun k => hU.meas (((e k.1).2 : ℕ), (e k.1).1, k.2),
      fun k => hU.half (((e k.1).2 : ℕ), (e k.1).1, k.2),
      hU.indep.precomp (g := fun k : Fin (n * R) × Fin d => (((e k.1).2 : ℕ), (e k.1).1, k.2)) ?_⟩
    rintro ⟨k, j⟩ ⟨k', j'⟩ hkk
    simp only [Prod.mk.injEq, Fin.val_inj] at hkk
    have : e k = e k' := Prod.ext hkk.2.1 hkk.1
    rw [he this, hkk.2.2]
  rw [← hU'.miss bits]
  refine measure_mono ?_
  intro ω hω k hc
  obtain ⟨h1, h2⟩ := hω (e k).2 (e k).2.2
  rcases hres : roundResult cfg f (r ω) (s ω) (e k).2 with e' | ⟨v, p⟩
  · exact h1 ⟨e', hres⟩
  · refine h2 ?_
    rw [hres]
    obtain ⟨sw, hsw, hpos⟩ := resetSwarm_bitString hk hi (r ω (e k).2).init
    have := round_position (by rw [hk]; simp [Kind.top]) f (r ω (e k).2) (hit _ _) hsw _ v p hres
      (e k).1
    rw [hpos, show (r ω (e k).2).init.bits (e k).1 = bits from funext hc] at this
    exact ⟨v, p, rfl, this⟩

/-- C119: so almost surely some round returns a best bit string (or raises). -/
theorem C119_binary_almost_surely (hn : 0 < n) {cfg : Config n d ℝ} (hk : cfg.kind = .binary)
    (hi : cfg.initPos = none)
    (s : Ω → Opt n d ℝ) (r : Ω → ℕ → Round n d) (hit : ∀ ω t, 1 ≤ (r ω t).iters)
    (hU : FairBits P fun (k : ℕ × Fin n × Fin d) ω => (r ω k.1).init.bits k.2.1 k.2.2)
    (f : Vec d ℝ → ℝ) (bits : Fin d → Bool) :
    ∀ᵐ ω ∂P, ∃ t, Raises (roundResult cfg f (r ω) (s ω) t) ∨
      Finds f (f (bitString bits)) (roundResult cfg f (r ω) (s ω) t) := by
  have hq : 0 < ((1 / 2 : ℝ)) ^ d ∧ ((1 / 2 : ℝ)) ^ d ≤ 1 :=
    ⟨by positivity, pow_le_one₀ (by norm_num) (by norm_num)⟩
  rw [ae_iff]
  have hle : ∀ R : ℕ, P {ω | ¬ ∃ t, Raises (roundResult cfg f (r ω) (s ω) t) ∨
      Finds f (f (bitString bits)) (roundResult cfg f (r ω) (s ω) t)} ≤
      ENNReal.ofReal ((1 - (1 / 2) ^ d) ^ (n * R)) := by
    intro R
    refine le_trans (measure_mono ?_) (C119_binary hk hi s r hit hU f bits R)
    intro ω hω t _
    exact ⟨fun hr => hω ⟨t, Or.inl hr⟩, fun hs => hω ⟨t, Or.inr hs⟩⟩
  exact le_antisymm (ge_of_tendsto' (restarts_limit hn hq.1 hq.2) hle) bot_le

/-! ### Non-vacuity -/

/-- Fair bits exist: `ω k ≥ 1/2` for the coordinates of the cube.  Twenty particles and ten bits: 500
rounds fail with probability at most `(1023/1024)^10000`. -/
example : ∃ (cfg : Config 20 10 ℝ) (r : (ℕ × Fin 20 × Fin 10 → ℝ) → ℕ → Round 20 10),
    cfg.kind = .binary ∧ cfg.initPos = none ∧ (∀ ω t, 1 ≤ (r ω t).iters) ∧
    FairBits (Measure.infinitePi fun _ : ℕ × Fin 20 × Fin 10 => unitLaw)
      fun (k : ℕ × Fin 20 × Fin 10) ω => (r ω k.1).init.bits k.2.1 k.2.2 := by
  refine ⟨{ kind := .binary, options := [("c1", 0.5), ("c2", 0.3), ("w", 0.9)]
            args := { k := some 3, p := some 2 }, center := fun _ => 1 },
    fun ω t => ⟨⟨fun i j => 0, fun i j => decide (1 / 2 ≤ ω (t, i, j)), fun _ j => j, fun i j => 0⟩,
      fun _ => { r1 := fun _ _ => 0, r2 := fun _ _ => 0, bh := ⟨fun _ => 0, fun _ => 0, 0⟩
                 oracle := ⟨fun _ _ _ _ => [], fun _ => .error .valueError, fun _ _ => []⟩
                 oh := fun _ => 0, thr := fun _ => 0 }, 10, none⟩, rfl, rfl,
    fun _ _ => by norm_num, ?_⟩
  have hg : Measurable fun x : ℝ => decide (1 / 2 ≤ x) :=
    measurable_to_bool (by
      have : (fun x : ℝ => decide (1 / 2 ≤ x)) ⁻¹' {true} = Set.Ici (1 / 2) := by ext x; simp
      rw [this]; exact measurableSet_Ici)
  have hi := iid_coordinates (ℕ × Fin 20 × Fin 10)
  refine ⟨fun k => hg.comp (hi.meas k), fun k b => ?_, hi.indep.comp _ fun _ => hg⟩
  cases b
  · have : {ω : ℕ × Fin 20 × Fin 10 → ℝ | decide (1 / 2 ≤ ω (k.1, k.2.1, k.2.2)) = false} =
        (fun ω => ω k) ⁻¹' Set.Iio (1 / 2) := by ext ω; simp
    rw [this, hi.preimage k measurableSet_Iio, unitLaw_Iio (by norm_num) (by norm_num)]
    rw [ENNReal.ofReal_div_of_pos (by norm_num)]; simp
  · have : {ω : ℕ × Fin 20 × Fin 10 → ℝ | decide (1 / 2 ≤ ω (k.1, k.2.1, k.2.2)) = true} =
        (fun ω => ω k) ⁻¹' Set.Ici (1 / 2) := by ext ω; simp
    rw [this, hi.preimage k measurableSet_Ici, unitLaw_Ici (by norm_num) (by norm_num)]
    rw [show (1 : ℝ) - 1 / 2 = 1 / 2 by norm_num, ENNReal.ofReal_div_of_pos (by norm_num)]; simp

end PySwarms
