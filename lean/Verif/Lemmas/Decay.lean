import Verif.Lemmas.Moments

/-! The recursion of the second moments: Lyapunov function.  Helper lemmas. -/

open MeasureTheory ProbabilityTheory Filter

namespace PySwarms

/-- Stability margin of the second moments. -/
theorem margin_pos {w s L D : ℝ} (hw : |w| < 1) (hD : D = (1 - w) * ((1 + w) ^ 2 - L ^ 2) - (1 + w) * s)
    (hs : 0 ≤ s) (hpos : 0 < D) : |L| < 1 + w := by
  rw [abs_lt] at hw
  have h1 : 0 < (1 - w) * ((1 + w) ^ 2 - L ^ 2) := by nlinarith
  have h2 : 0 < (1 + w) ^ 2 - L ^ 2 := by
    by_contra hc
    nlinarith
  exact abs_lt_of_sq_lt_sq (by linarith) (by linarith)

/-- A quadratic form that decreases along the recursion of the second moments. -/
theorem lyapunov {w s L : ℝ} (hw : |w| < 1) (hs : 0 ≤ s)
    (hpos : 0 < (1 - w) * ((1 + w) ^ 2 - L ^ 2) - (1 + w) * s) :
    ∃ α β ε c C₀ : ℝ, 0 < ε ∧ 0 < c ∧ 0 < C₀ ∧ ε ≤ C₀ ∧
      (∀ A B C : ℝ, (∀ r s : ℝ, 0 ≤ r ^ 2 * C + 2 * r * s * B + s ^ 2 * A) →
        c * (A + C) ≤ A - 2 * β * B + α * C ∧ A - 2 * β * B + α * C ≤ C₀ * (A + C)) ∧
      ∀ A B C N : ℝ,
        (L ^ 2 * A - 2 * L * w * B + w ^ 2 * C + (N + s * A)) - 2 * β * (L * A - w * B) + α * A =
          (A - 2 * β * B + α * C) - ε * (A + C) + N := by
  set D := (1 - w) * ((1 + w) ^ 2 - L ^ 2) - (1 + w) * s with hD
  have hL := margin_pos hw hD hs hpos
  rw [abs_lt] at hw
  have hL2 : L ^ 2 < (1 + w) ^ 2 := by
    rw [abs_lt] at hL; nlinarith
  have h1w : 0 < 1 + w := by linarith
  set β := w * L / (1 + w) with hβ
  set ε := D / (2 * (1 + w)) with hε
  set α := w ^ 2 + ε with hα
  have hεp : 0 < ε := by positivity
  have hβ1 : β * (1 + w) = w * L := by rw [hβ]; field_simp
  have hε1 : ε * (2 * (1 + w)) = D := by rw [hε]; field_simp
  have hβ2 : β ^ 2 ≤ w ^ 2 := by
    have : β ^ 2 * (1 + w) ^ 2 ≤ w ^ 2 * (1 + w) ^ 2 := by
      rw [← mul_pow, hβ1, mul_pow]; exact mul_le_mul_of_nonneg_left hL2.le (sq_nonneg _)
    exact le_of_mul_le_mul_right this (by positivity)
  have hα0 : 0 < α := by positivity
  have hα1 : 0 < 1 + α := by linarith
  set c := (α - β ^ 2) / (1 + α) with hc
  have hcp : 0 < c := div_pos (by linarith) hα1
  have hc1 : c * (1 + α) = α - β ^ 2 := by rw [hc]; field_simp
  have hcl : c < 1 := by rw [hc, div_lt_one hα1]; nlinarith [sq_nonneg β]
  refine ⟨α, β, ε, c, 1 + α + |β|, hεp, hcp, by positivity, ?_, ?_, ?_⟩
  · have := abs_nonneg β
    nlinarith [sq_nonneg w]
  · intro A B C hp
    have hA : 0 ≤ A := by simpa using hp 0 1
    have hC : 0 ≤ C := by simpa using hp 1 0
    constructor
    · have h1 := hp (-β) (1 - c)
      have h2 : 0 ≤ ((1 - c) * (α - c) - β ^ 2) * C := by
        apply mul_nonneg _ hC
        nlinarith [sq_nonneg c]
      have h3 : 0 ≤ (1 - c) * ((1 - c) * A - 2 * β * B + (α - c) * C) := by
        nlinarith
      have h4 : 0 ≤ (1 - c) * A - 2 * β * B + (α - c) * C := by
        by_contra hneg
        have : (1 - c) * ((1 - c) * A - 2 * β * B + (α - c) * C) < 0 :=
          mul_neg_of_pos_of_neg (by linarith) (by linarith)
        linarith
      linarith
    · have h1 := hp 1 1
      have h2 := hp 1 (-1)
      have h3 : |2 * B| ≤ A + C := by rw [abs_le]; constructor <;> linarith
      have h4 : -2 * β * B ≤ |β| * (A + C) := by
        calc -2 * β * B ≤ |(-2 * β * B)| := le_abs_self _
          _ = |β| * |2 * B| := by rw [← abs_mul, ← abs_neg]; ring_nf
          _ ≤ _ := by gcongr
      nlinarith [mul_nonneg hα0.le hA]
  · intro A B C N
    have e1 : β * (1 + w) = L * w := by linarith
    have e2 : (1 + w) * (1 - L ^ 2 - s + 2 * β * L - α - ε) = 0 := by
      rw [hα]
      have : 2 * ε * (1 + w) = D := by linarith
      rw [hD] at this
      linear_combination (2 * L) * e1 - this
    have e3 : 1 - L ^ 2 - s + 2 * β * L - α - ε = 0 := by
      rcases mul_eq_zero.1 e2 with h | h
      · linarith
      · exact h
    rw [hα] at e3 ⊢
    linear_combination (-A) * e3 + (2 * B) * e1

/-- Homogeneous case: geometric decay. -/
theorem second_moment_decay {w s L : ℝ} (hw : |w| < 1) (hs : 0 ≤ s)
    (hpos : 0 < (1 - w) * ((1 + w) ^ 2 - L ^ 2) - (1 + w) * s) {A B C : ℕ → ℝ}
    (hp : ∀ t, ∀ r s : ℝ, 0 ≤ r ^ 2 * C t + 2 * r * s * B t + s ^ 2 * A t)
    (hA : ∀ t, A (t + 1) = L ^ 2 * A t - 2 * L * w * B t + w ^ 2 * C t + s * A t)
    (hB : ∀ t, B (t + 1) = L * A t - w * B t) (hC : ∀ t, C (t + 1) = A t) :
    ∃ ρ D : ℝ, 0 ≤ ρ ∧ ρ < 1 ∧ ∀ t, A t ≤ D * ρ ^ t := by
  obtain ⟨α, β, ε, c, C₀, hε, hc, hC₀, hεC, hq, hstep⟩ := lyapunov hw hs hpos
  set M : ℕ → ℝ := fun t => A t - 2 * β * B t + α * C t with hM
  have hρ0 : 0 ≤ 1 - ε / C₀ := by
    rw [sub_nonneg, div_le_one hC₀]; exact hεC
  have hM1 : ∀ t, M (t + 1) ≤ (1 - ε / C₀) * M t := by
    intro t
    have h1 := hstep (A t) (B t) (C t) 0
    have h2 := (hq _ _ _ (hp t)).2
    have h3 : M (t + 1) = M t - ε * (A t + C t) := by
      simp only [hM]; rw [hA, hB, hC]; linarith
    have h4 : ε / C₀ * M t ≤ ε * (A t + C t) := by
      rw [div_mul_eq_mul_div, div_le_iff₀ hC₀]
      calc ε * M t ≤ ε * (C₀ * (A t + C t)) := by gcongr
        _ = _ := by ring
    rw [h3]; linarith
  have hM2 : ∀ t, M t ≤ M 0 * (1 - ε / C₀) ^ t := by
    intro t
    induction t with
    | zero => simp
    | succ t ih =>
      calc M (t + 1) ≤ (1 - ε / C₀) * M t := hM1 t
        _ ≤ (1 - ε / C₀) * (M 0 * (1 - ε / C₀) ^ t) := by gcongr
        _ = _ := by ring
  refine ⟨1 - ε / C₀, M 0 / c, hρ0, by linarith [div_pos hε hC₀], fun t => ?_⟩
  have h1 := (hq _ _ _ (hp t)).1
  have h2 : 0 ≤ C t := by simpa using hp t 1 0
  have h3 : c * A t ≤ M t := by nlinarith
  rw [div_mul_eq_mul_div, le_div_iff₀ hc]
  linarith [hM2 t]

/-- Inhomogeneous case: the second moments stay bounded. -/
theorem second_moment_bdd {w s L H κ : ℝ} (hw : |w| < 1) (hs : 0 ≤ s)
    (hpos : 0 < (1 - w) * ((1 + w) ^ 2 - L ^ 2) - (1 + w) * s) {A B C m : ℕ → ℝ}
    (hp : ∀ t, ∀ r s : ℝ, 0 ≤ r ^ 2 * C t + 2 * r * s * B t + s ^ 2 * A t)
    (hm : ∀ t, m t ^ 2 ≤ A t)
    (hA : ∀ t, A (t + 1) = L ^ 2 * A t - 2 * L * w * B t + w ^ 2 * C t
      + ((H - 2 * κ * m t) + s * A t))
    (hB : ∀ t, B (t + 1) = L * A t - w * B t) (hC : ∀ t, C (t + 1) = A t) :
    ∃ D : ℝ, ∀ t, A t ≤ D := by
  obtain ⟨α, β, ε, c, C₀, hε, hc, hC₀, hεC, hq, hstep⟩ := lyapunov hw hs hpos
  set M : ℕ → ℝ := fun t => A t - 2 * β * B t + α * C t with hM
  set G := |H| + 2 * κ ^ 2 / ε with hG
  set θ := ε / (2 * C₀) with hθ
  have hθp : 0 < θ := by positivity
  have hθ1 : θ ≤ 1 := by rw [hθ, div_le_one (by positivity)]; linarith
  have hM1 : ∀ t, M (t + 1) ≤ (1 - θ) * M t + G := by
    intro t
    have h1 := hstep (A t) (B t) (C t) (H - 2 * κ * m t)
    have h2 := (hq _ _ _ (hp t)).2
    have h3 : M (t + 1) = M t - ε * (A t + C t) + (H - 2 * κ * m t) := by
      simp only [hM]; rw [hA, hB, hC]; linarith
    have hC0 : 0 ≤ C t := by simpa using hp t 1 0
    have h5 : -2 * κ * m t ≤ ε / 2 * A t + 2 * κ ^ 2 / ε := by
      have e : 0 ≤ (ε * m t + 2 * κ) ^ 2 := sq_nonneg _
      have e2 : ε * (-2 * κ * m t) ≤ ε * (ε / 2 * A t + 2 * κ ^ 2 / ε) := by
        have : ε * (2 * κ ^ 2 / ε) = 2 * κ ^ 2 := by field_simp
        rw [mul_add, this]
        nlinarith [hm t, mul_le_mul_of_nonneg_left (hm t) (sq_nonneg ε)]
      exact le_of_mul_le_mul_left e2 hε
    have h4 : θ * M t ≤ ε / 2 * (A t + C t) := by
      rw [hθ, div_mul_eq_mul_div, div_le_iff₀ (by positivity)]
      calc ε * M t ≤ ε * (C₀ * (A t + C t)) := by gcongr
        _ = _ := by ring
    rw [h3, hG]
    nlinarith [le_abs_self H]
  have hG0 : 0 ≤ G := by positivity
  have hM2 : ∀ t, M t ≤ max (M 0) (G / θ) := by
    intro t
    induction t with
    | zero => exact le_max_left _ _
    | succ t ih =>
      set X := max (M 0) (G / θ)
      have hX : G ≤ θ * X := by
        have : G / θ ≤ X := le_max_right _ _
        rw [div_le_iff₀ hθp] at this; linarith
      calc M (t + 1) ≤ (1 - θ) * M t + G := hM1 t
        _ ≤ (1 - θ) * X + θ * X := by gcongr
        _ = X := by ring
  refine ⟨max (M 0) (G / θ) / c, fun t => ?_⟩
  have h1 := (hq _ _ _ (hp t)).1
  have h2 : 0 ≤ C t := by simpa using hp t 1 0
  have h3 : c * A t ≤ M t := by nlinarith
  rw [le_div_iff₀ hc]
  linarith [hM2 t]

end PySwarms
