import Mathlib.Analysis.SpecificLimits.Normed
import Mathlib.Analysis.Complex.Polynomial.Basic
import Mathlib.Tactic

/-! Second-order linear recurrences with roots inside the unit disc.  Helper lemmas. -/

namespace PySwarms

theorem exists_roots (b w : ℂ) : ∃ l m : ℂ, l + m = b ∧ l * m = w := by
  obtain ⟨s, hs⟩ := IsAlgClosed.exists_pow_nat_eq (b ^ 2 - 4 * w) (n := 2) (by norm_num)
  refine ⟨(b + s) / 2, (b - s) / 2, by ring, ?_⟩
  linear_combination (-1 / 4) * hs

/-- Both roots of `z² - b z + w` are inside the unit disc when `|w| < 1` and `|b| < 1 + w`. -/
theorem root_lt_one {b w : ℝ} (hw : |w| < 1) (hb : |b| < 1 + w) {l : ℂ}
    (h : l ^ 2 - b * l + w = 0) : ‖l‖ < 1 := by
  rw [abs_lt] at hw hb
  have hre : l.re ^ 2 - l.im ^ 2 - b * l.re + w = 0 := by
    have := congrArg Complex.re h
    simp [pow_two] at this
    nlinarith [this]
  have him : l.im * (2 * l.re - b) = 0 := by
    have := congrArg Complex.im h
    simp [pow_two] at this
    nlinarith [this]
  have hn : ‖l‖ ^ 2 = l.re ^ 2 + l.im ^ 2 := by
    rw [← Complex.normSq_eq_norm_sq, Complex.normSq_apply]; ring
  have : ‖l‖ ^ 2 < 1 := by
    rw [hn]
    rcases mul_eq_zero.1 him with h0 | h0
    · rw [h0] at hre ⊢
      by_contra hc
      have h1 : 1 ≤ l.re ^ 2 := by nlinarith
      rcases le_total 0 l.re with h2 | h2
      · have h3 : 1 ≤ l.re := by nlinarith
        nlinarith
      · have h3 : l.re ≤ -1 := by nlinarith
        nlinarith
    · have : l.re = b / 2 := by linarith
      nlinarith
  nlinarith [norm_nonneg l]

/-- `z (t+1) = l z t + y t` with `|l| < ρ` and `y` bounded by `C ρ^t` is bounded by `D ρ^t`. -/
theorem first_order_bound {l : ℂ} {ρ C : ℝ} (hl : ‖l‖ < ρ) {z y : ℕ → ℂ}
    (hy : ∀ t, ‖y t‖ ≤ C * ρ ^ t) (hz : ∀ t, z (t + 1) = l * z t + y t) :
    ∃ D, ∀ t, ‖z t‖ ≤ D * ρ ^ t := by
  have hρ : 0 < ρ := (norm_nonneg l).trans_lt hl
  have hC : 0 ≤ C := by simpa using (norm_nonneg _).trans (hy 0)
  refine ⟨max ‖z 0‖ (C / (ρ - ‖l‖)), fun t => ?_⟩
  induction t with
  | zero => simp
  | succ t ih =>
    set D := max ‖z 0‖ (C / (ρ - ‖l‖))
    have hD : C ≤ D * (ρ - ‖l‖) := by
      have : C / (ρ - ‖l‖) ≤ D := le_max_right _ _
      rwa [div_le_iff₀ (by linarith)] at this
    have hp := pow_pos hρ t
    calc ‖z (t + 1)‖ ≤ ‖l‖ * ‖z t‖ + ‖y t‖ := by
          rw [hz]; exact (norm_add_le _ _).trans (by rw [norm_mul])
      _ ≤ ‖l‖ * (D * ρ ^ t) + C * ρ ^ t := by
          gcongr; exact hy t
      _ ≤ ‖l‖ * (D * ρ ^ t) + (D * (ρ - ‖l‖)) * ρ ^ t := by gcongr
      _ = D * ρ ^ (t + 1) := by rw [pow_succ]; ring

theorem second_order_decay {b w : ℝ} (hw : |w| < 1) (hb : |b| < 1 + w) {z : ℕ → ℝ}
    (h : ∀ t, z (t + 2) = b * z (t + 1) - w * z t) :
    ∃ ρ D : ℝ, 0 < ρ ∧ ρ < 1 ∧ ∀ t, |z t| ≤ D * ρ ^ t := by
  obtain ⟨l, m, h1, h2⟩ := exists_roots (b : ℂ) w
  have hl : ‖l‖ < 1 := root_lt_one hw hb (by rw [← h1, ← h2]; ring)
  have hm : ‖m‖ < 1 := root_lt_one hw hb (by rw [← h1, ← h2]; ring)
  obtain ⟨ρ, hρ1, hρ2⟩ := exists_between (max_lt hl hm)
  have hρl := (le_max_left _ _).trans_lt hρ1
  have hρm := (le_max_right _ _).trans_lt hρ1
  have hρ : 0 < ρ := (norm_nonneg l).trans_lt hρl
  set y : ℕ → ℂ := fun t => z (t + 1) - l * z t with hyd
  have hy : ∀ t, y (t + 1) = m * y t := by
    intro t
    have : (z (t + 2) : ℂ) = b * z (t + 1) - w * z t := by rw [h t]; push_cast; ring
    simp only [hyd]
    rw [show t + 1 + 1 = t + 2 from rfl, this, ← h1, ← h2]; ring
  have hyb : ∀ t, ‖y t‖ ≤ ‖y 0‖ * ρ ^ t := by
    intro t
    induction t with
    | zero => simp
    | succ t ih =>
      rw [hy, norm_mul, pow_succ]
      calc ‖m‖ * ‖y t‖ ≤ ρ * (‖y 0‖ * ρ ^ t) := by gcongr
        _ = _ := by ring
  obtain ⟨D, hD⟩ := first_order_bound (z := fun t => (z t : ℂ)) hρl hyb
    (fun t => by simp only [hyd]; ring)
  refine ⟨ρ, D, hρ, hρ2, fun t => ?_⟩
  simpa using hD t

/-- With `b < -(1 + w)` a solution that starts with `0, a`, `a ≠ 0`, grows without bound. -/
theorem second_order_growth {b w a : ℝ} (hw : |w| < 1) (hb : b < -(1 + w)) (ha : a ≠ 0)
    {z : ℕ → ℝ} (h : ∀ t, z (t + 2) = b * z (t + 1) - w * z t) (h0 : z 0 = 0) (h1 : z 1 = a) :
    Filter.Tendsto (fun t => |z t|) Filter.atTop Filter.atTop := by
  rw [abs_lt] at hw
  have hdisc : (1 - w) ^ 2 < b ^ 2 - 4 * w := by nlinarith
  set r := Real.sqrt (b ^ 2 - 4 * w) with hr
  have hr2 : r ^ 2 = b ^ 2 - 4 * w := Real.sq_sqrt (by nlinarith)
  have hr1 : 1 - w < r := by
    have hr0 := Real.sqrt_nonneg (b ^ 2 - 4 * w)
    rw [← hr] at hr0
    nlinarith
  set l := (b - r) / 2 with hl
  set m := (b + r) / 2 with hm
  have hsum : l + m = b := by rw [hl, hm]; ring
  have hprod : l * m = w := by rw [hl, hm]; linear_combination (-1 / 4) * hr2
  have hl1 : l < -1 := by rw [hl]; linarith
  have hml : m - l = r := by rw [hl, hm]; ring
  have hm1 : |m| ≤ 1 := by
    have : |l| * |m| = |w| := by rw [← abs_mul, hprod]
    have e1 : 1 < |l| := by rw [abs_of_neg (by linarith)]; linarith
    have e2 : |w| < 1 := by rw [abs_lt]; exact hw
    nlinarith [abs_nonneg m]
  have hrp : 0 < r := by linarith
  have hform : ∀ t, z t * r = a * (m ^ t - l ^ t) ∧ z (t + 1) * r = a * (m ^ (t + 1) - l ^ (t + 1)) := by
    intro t
    induction t with
    | zero => simp [h0, h1, hml]
    | succ t ih =>
      refine ⟨ih.2, ?_⟩
      rw [show t + 1 + 1 = t + 2 from rfl, h t, sub_mul, mul_assoc, mul_assoc, ih.1, ih.2, ← hsum,
        ← hprod]
      ring
  have hgrow : Filter.Tendsto (fun t : ℕ => |a| / r * (|l| ^ t - 1)) Filter.atTop Filter.atTop := by
    apply Filter.Tendsto.const_mul_atTop (by positivity)
    apply Filter.tendsto_atTop_add_const_right
    exact tendsto_pow_atTop_atTop_of_one_lt (by rw [abs_of_neg (by linarith)]; linarith)
  refine Filter.tendsto_atTop_mono (fun t => ?_) hgrow
  have h2 : |z t| * r = |a| * |m ^ t - l ^ t| := by
    rw [← abs_mul, ← (hform t).1, abs_mul, abs_of_pos hrp]
  have h3 : |l| ^ t - 1 ≤ |m ^ t - l ^ t| := by
    have e1 : |m ^ t| ≤ 1 := by rw [abs_pow]; exact pow_le_one₀ (abs_nonneg _) hm1
    have e2 := abs_sub_abs_le_abs_sub (l ^ t) (m ^ t)
    rw [abs_pow l t] at e2
    rw [abs_sub_comm]; linarith
  rw [div_mul_eq_mul_div, div_le_iff₀ hrp, h2]
  exact mul_le_mul_of_nonneg_left h3 (abs_nonneg _)

theorem tendsto_of_geometric {z : ℕ → ℝ} {ρ D q : ℝ} (h0 : 0 < ρ) (h1 : ρ < 1)
    (h : ∀ t, |z t - q| ≤ D * ρ ^ t) : Filter.Tendsto z Filter.atTop (nhds q) := by
  rw [tendsto_iff_norm_sub_tendsto_zero]
  refine squeeze_zero (fun t => norm_nonneg _) h ?_
  simpa using (tendsto_pow_atTop_nhds_zero_of_lt_one h0.le h1).const_mul D

end PySwarms
