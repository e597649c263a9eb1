import Verif.Props.Functions
import Verif.Lemmas.Trig
import Mathlib.Analysis.Real.Pi.Bounds
import Mathlib.Analysis.Complex.ExponentialBounds

/-! # C46: the Hölder table function -/

namespace PySwarms.Bench

open Real

theorem exp_neg_ge {z : ℝ} (hz : z ≤ 0.4452) : 0.6 ≤ exp (-z) := by
  have h2 : exp (-z) = exp (-z / 2) * exp (-z / 2) := by
    rw [← exp_add]; congr 1; ring
  have h3 := add_one_le_exp (-z / 2)
  have h4 : 0.7774 ≤ exp (-z / 2) := by linarith
  rw [h2]
  have := mul_le_mul h4 h4 (by norm_num) (by linarith)
  refine le_trans ?_ this
  norm_num

set_option maxHeartbeats 1000000 in
/-- One coordinate: near the critical point the cosine falls off faster than the exponential
grows, elsewhere there is room. -/
theorem holder_core {t T a k u : ℝ} (ht1 : 0.2 ≤ t) (ht2 : t ≤ 0.24) (hT : sin t = T * cos t)
    (hT1 : 0.2 ≤ T) (hT2 : T ≤ 0.25) (ha1 : t ≤ a) (ha2 : a ≤ 0.25) (haT : |a - T| ≤ 1 / 100000)
    (hk1 : 0 ≤ k) (hk2 : k ≤ 0.0127) (hu1 : -9.7 ≤ u) (hu2 : t + u ≤ 2.1461)
    (hneg : π / 2 ≤ t + u → a ≤ 0.204) :
    |cos (t + u)| * exp (a * u + k * u ^ 2) ≤ cos t * (1 + 1 / 1000000000) := by
  have hct : 1 - t ^ 2 / 2 ≤ cos t := one_sub_sq_div_two_le_cos
  have hct0 : 0.97 ≤ cos t := by nlinarith
  -- it is enough to bound the cosine by the inverse of the exponential
  suffices h : |cos (t + u)| ≤ cos t * (1 + 1 / 1000000000) * exp (-(a * u + k * u ^ 2)) by
    have := mul_le_mul_of_nonneg_right h (exp_pos (a * u + k * u ^ 2)).le
    rwa [mul_assoc (cos t * (1 + 1 / 1000000000)), ← exp_add, neg_add_cancel, exp_zero, mul_one] at this
  have hexp := add_one_le_exp (-(a * u + k * u ^ 2))
  rcases le_or_gt u (-0.2) with hu | hu
  · -- far to the left
    have hz : 0.2 * t - 0.0006 ≤ -(a * u + k * u ^ 2) := by
      have h1 : 0 ≤ (-0.2 - u) * (u + 9.7) := mul_nonneg (by linarith) (by linarith)
      have h2 := mul_nonneg hk1 h1
      have h3 : 0 ≤ (-0.2 - u) * (a - 9.9 * k) := mul_nonneg (by linarith) (by linarith)
      nlinarith
    have h1 : 1 ≤ cos t * (1 + 1 / 1000000000) * exp (-(a * u + k * u ^ 2)) := by
      have h2 : 1 + (0.2 * t - 0.0006) ≤ exp (-(a * u + k * u ^ 2)) := by linarith
      have h3 : (1 - t ^ 2 / 2) * (1 + (0.2 * t - 0.0006)) ≤ cos t * exp (-(a * u + k * u ^ 2)) :=
        mul_le_mul hct h2 (by nlinarith) (by linarith)
      have h4 : 1 ≤ (1 - t ^ 2 / 2) * (1 + (0.2 * t - 0.0006)) := by nlinarith
      have h5 : 0 ≤ cos t * exp (-(a * u + k * u ^ 2)) := by linarith
      nlinarith
    exact (abs_cos_le_one _).trans h1
  · have hu3 : u ≤ 1.9461 := by linarith
    rcases le_or_gt 0 (cos (t + u)) with hc | hc
    · -- around the critical point
      rw [abs_of_nonneg hc, cos_add, hT]
      have hz : a * u + k * u ^ 2 ≤ 0.6 := by nlinarith
      have key : cos u - T * sin u ≤ (1 + 1 / 1000000000) * (1 - (a * u + k * u ^ 2)) := by
        have hc4 := cos_le_four u
        obtain ⟨e1, e2⟩ := abs_le.1 haT
        have hq : ∀ w : ℝ, 0 ≤ 0.24 * w ^ 2 - 1 / 100000 * w + 0.4 / 1000000000 := by
          intro w
          have := sq_nonneg (w - 1 / 48000)
          have e : 0.24 * w ^ 2 - 1 / 100000 * w + 0.4 / 1000000000 =
            0.24 * (w - 1 / 48000) ^ 2 + (0.4 / 1000000000 - 0.24 / 48000 ^ 2) := by ring
          rw [e]
          have : (0 : ℝ) ≤ 0.4 / 1000000000 - 0.24 / 48000 ^ 2 := by norm_num
          positivity
        have hfin : cos u - T * sin u ≤ 1 - (a * u + k * u ^ 2) + 0.4 / 1000000000 := by
          rcases le_total 0 u with h0 | h0
          · have hs := sin_ge_sub_cube h0
            have h1 := mul_le_mul_of_nonneg_left hs (by linarith : 0 ≤ T)
            have h2 : 0.24 * u ^ 2 ≤ u ^ 2 / 2 - k * u ^ 2 - u ^ 4 / 24 - T * u ^ 3 / 6 := by
              have h4 : 0 ≤ (1 / 2 - k - u ^ 2 / 24 - T * u / 6) - 0.24 := by nlinarith
              have := mul_nonneg (sq_nonneg u) h4
              linarith
            have h3 : (a - T) * u ≤ 1 / 100000 * u := mul_le_mul_of_nonneg_right e2 h0
            have h5 := hq u
            linarith
          · have hs : -sin u ≤ -u := by have := le_sin h0; linarith
            have h1 := mul_le_mul_of_nonneg_left hs (by linarith : 0 ≤ T)
            have h2 : 0.24 * u ^ 2 ≤ u ^ 2 / 2 - k * u ^ 2 - u ^ 4 / 24 := by
              have h4 : 0 ≤ (1 / 2 - k - u ^ 2 / 24) - 0.24 := by nlinarith
              have := mul_nonneg (sq_nonneg u) h4
              linarith
            have h3 : (T - a) * (-u) ≤ 1 / 100000 * (-u) :=
              mul_le_mul_of_nonneg_right (by linarith) (by linarith)
            have h5 := hq (-u)
            linarith
        generalize a * u + k * u ^ 2 = z at *
        norm_num at hz hfin ⊢
        linarith
      have h1 : cos u - T * sin u ≤ (1 + 1 / 1000000000) * exp (-(a * u + k * u ^ 2)) :=
        key.trans (mul_le_mul_of_nonneg_left (by linarith) (by norm_num))
      have := mul_le_mul_of_nonneg_left h1 (by linarith : 0 ≤ cos t)
      nlinarith
    · -- beyond the next zero
      have hp1 := pi_gt_d4
      have hp2 := pi_lt_d4
      have hpi : π / 2 ≤ t + u := by
        by_contra hcon
        have := cos_nonneg_of_mem_Icc (x := t + u) ⟨by linarith, by linarith⟩
        linarith
      have ha := hneg hpi
      have hs : -cos (t + u) ≤ 0.5755 := by
        have h1 : -cos (t + u) = sin (t + u - π / 2) := by rw [sin_sub_pi_div_two]
        rw [h1]
        have := sin_le (x := t + u - π / 2) (by linarith)
        norm_num at hp1 ⊢
        linarith
      rw [abs_of_neg hc]
      have hz : a * u + k * u ^ 2 ≤ 0.4452 := by
        have hu0 : 0 ≤ u := by norm_num at hp1 ht2 ⊢; linarith
        nlinarith
      have h1 := exp_neg_ge hz
      have h2 : (0.97 : ℝ) * 0.6 ≤ cos t * exp (-(a * u + k * u ^ 2)) :=
        mul_le_mul hct0 h1 (by norm_num) (by linarith)
      have h3 : 0 ≤ cos t * exp (-(a * u + k * u ^ 2)) := by linarith
      calc -cos (t + u) ≤ 0.97 * 0.6 := by linarith
        _ ≤ cos t * exp (-(a * u + k * u ^ 2)) := h2
        _ ≤ cos t * (1 + 1 / 1000000000) * exp (-(a * u + k * u ^ 2)) := by linarith

/-! ### The documented point -/

/-- `8.05502` and `9.66459`. -/
noncomputable def holderX : ℝ := 8.05502
noncomputable def holderY : ℝ := 9.66459

noncomputable def holderR : ℝ := √(holderX ^ 2 + holderY ^ 2)

theorem holderR_bounds : 12.58124187 < holderR ∧ holderR < 12.58124188 := by
  unfold holderR holderX holderY
  constructor
  · rw [lt_sqrt (by norm_num)]; norm_num
  · rw [sqrt_lt' (by norm_num)]; norm_num

theorem holder_sin (x : ℝ) : |sin x| = |cos (|x| - 5 * π / 2)| := by
  have h : cos (|x| - 5 * π / 2) = sin |x| := by
    rw [show |x| - 5 * π / 2 = |x| - π / 2 - 2 * π by ring, cos_sub_two_pi, cos_sub_pi_div_two]
  rw [h]
  rcases abs_choice x with h | h <;> rw [h]
  rw [sin_neg, abs_neg]

theorem holder_cos (y : ℝ) : |cos y| = |cos (|y| - 3 * π)| := by
  rw [show |y| - 3 * π = |y| - π - 2 * π by ring, cos_sub_two_pi, cos_sub_pi, abs_neg, cos_abs]

/-- Enclosures of sine and cosine at `x0 - 5π/2` and `y0 - 3π`. -/
theorem holder_t : ∃ e : ℝ, |e| < 1 / 10000000000 ∧ holderX - 5 * π / 2 = 0.2010383660 + e := by
  have h1 := pi_gt_d20
  have h2 := pi_lt_d20
  refine ⟨holderX - 5 * π / 2 - 0.2010383660, ?_, by ring⟩
  unfold holderX
  rw [abs_lt]
  norm_num at h1 h2 ⊢
  constructor <;> linarith

theorem holder_w : ∃ e : ℝ, |e| < 1 / 10000000000 ∧ holderY - 3 * π = 0.2398120392 + e := by
  have h1 := pi_gt_d20
  have h2 := pi_lt_d20
  refine ⟨holderY - 3 * π - 0.2398120392, ?_, by ring⟩
  unfold holderY
  rw [abs_lt]
  norm_num at h1 h2 ⊢
  constructor <;> linarith

theorem holder_cos_t : 0.9798597 < cos (holderX - 5 * π / 2) ∧
    cos (holderX - 5 * π / 2) < 0.9798599 := by
  obtain ⟨e, he, h⟩ := holder_t
  rw [h]
  have h1 := cos_ge_six 0.2010383660
  have h2 := cos_le_four 0.2010383660
  have h3 := abs_le.1 ((abs_cos_sub_cos_le (0.2010383660 + e) 0.2010383660))
  rw [add_sub_cancel_left] at h3
  norm_num at h1 h2 h3 he ⊢
  constructor <;> linarith [h3.1, h3.2]

theorem holder_cos_w : 0.9713826 < cos (holderY - 3 * π) ∧ cos (holderY - 3 * π) < 0.9713830 := by
  obtain ⟨e, he, h⟩ := holder_w
  rw [h]
  have h1 := cos_ge_six 0.2398120392
  have h2 := cos_le_four 0.2398120392
  have h3 := abs_le.1 ((abs_cos_sub_cos_le (0.2398120392 + e) 0.2398120392))
  rw [add_sub_cancel_left] at h3
  norm_num at h1 h2 h3 he ⊢
  constructor <;> linarith [h3.1, h3.2]

theorem holder_sin_t : 0.199686 < sin (holderX - 5 * π / 2) ∧
    sin (holderX - 5 * π / 2) < 0.199688 := by
  obtain ⟨e, he, h⟩ := holder_t
  rw [h]
  have h1 := sin_le_five (x := 0.2010383660) (by norm_num)
  have h2 := sin_ge_five (x := 0.2010383660) (by norm_num)
  have h3 := abs_le.1 ((abs_sin_sub_sin_le (0.2010383660 + e) 0.2010383660))
  rw [add_sub_cancel_left] at h3
  norm_num at h1 h2 h3 he ⊢
  constructor <;> linarith [h3.1, h3.2]

theorem holder_sin_w : 0.237519 < sin (holderY - 3 * π) ∧ sin (holderY - 3 * π) < 0.237521 := by
  obtain ⟨e, he, h⟩ := holder_w
  rw [h]
  have h1 := sin_le_five (x := 0.2398120392) (by norm_num)
  have h2 := sin_ge_five (x := 0.2398120392) (by norm_num)
  have h3 := abs_le.1 ((abs_sin_sub_sin_le (0.2398120392 + e) 0.2398120392))
  rw [add_sub_cancel_left] at h3
  norm_num at h1 h2 h3 he ⊢
  constructor <;> linarith [h3.1, h3.2]

/-- The value of the exponential factor at the documented point. -/
theorem holder_exp : 20.18084 < exp (holderR / π - 1) ∧ exp (holderR / π - 1) < 20.180842 := by
  obtain ⟨r1, r2⟩ := holderR_bounds
  have h1 := pi_gt_d20
  have h2 := pi_lt_d20
  have q1 : 4.00473366 < holderR / π := by
    rw [lt_div_iff₀ pi_pos]
    norm_num at h2 r1 ⊢
    linarith
  have q2 : holderR / π < 4.00473368 := by
    rw [div_lt_iff₀ pi_pos]
    norm_num at h1 r2 ⊢
    linarith
  have x1 := (abs_le.1 (exp_bound (x := 0.00473366) (by rw [abs_le]; norm_num)
    (n := 4) (by norm_num))).1
  have x2 := (abs_le.1 (exp_bound (x := 0.00473368) (by rw [abs_le]; norm_num)
    (n := 4) (by norm_num))).2
  rw [abs_of_pos (by norm_num)] at x1 x2
  have e3 : exp 3 = exp 1 ^ 3 := by rw [← exp_nat_mul]; norm_num
  have l3 := pow_le_pow_left₀ (by norm_num) exp_one_gt_d9.le 3
  have u3 := pow_le_pow_left₀ (exp_pos 1).le exp_one_lt_d9.le 3
  have y1 : (1.00474488 : ℝ) ≤ exp 0.00473366 := by
    norm_num [Finset.sum_range_succ, Nat.factorial] at x1 ⊢
    linarith
  have y2 : exp 0.00473368 ≤ (1.00474491 : ℝ) := by
    norm_num [Finset.sum_range_succ, Nat.factorial] at x2 ⊢
    linarith
  constructor
  · calc (20.18084 : ℝ) < 2.7182818283 ^ 3 * 1.00474488 := by norm_num
      _ ≤ exp 1 ^ 3 * exp 0.00473366 := mul_le_mul l3 y1 (by norm_num) (by positivity)
      _ = exp (3 + 0.00473366) := by rw [exp_add, e3]
      _ ≤ exp (holderR / π - 1) := exp_le_exp.2 (by norm_num at q1 ⊢; linarith)
  · calc exp (holderR / π - 1) ≤ exp (3 + 0.00473368) :=
          exp_le_exp.2 (by norm_num at q2 ⊢; linarith)
      _ = exp 1 ^ 3 * exp 0.00473368 := by rw [exp_add, e3]
      _ ≤ 2.7182818286 ^ 3 * 1.00474491 := mul_le_mul u3 y2 (exp_pos _).le (by norm_num)
      _ < 20.180842 := by norm_num

/-- The value at the documented points. -/
noncomputable def holderMin : ℝ :=
  -(cos (holderX - 5 * π / 2) * cos (holderY - 3 * π) * exp (holderR / π - 1))

theorem holderMin_value : |holderMin - -19.2085| < 0.00005 := by
  obtain ⟨a1, a2⟩ := holder_cos_t
  obtain ⟨b1, b2⟩ := holder_cos_w
  obtain ⟨c1, c2⟩ := holder_exp
  have l1 := mul_lt_mul'' a1 b1 (by norm_num) (by norm_num)
  have l2 := mul_lt_mul'' l1 c1 (by norm_num) (by norm_num)
  have u1 := mul_lt_mul'' a2 b2 (by linarith) (by linarith)
  have u2 := mul_lt_mul'' u1 c2 (mul_nonneg (by linarith) (by linarith)) (exp_pos _).le
  unfold holderMin
  rw [abs_lt]
  norm_num at l2 u2 ⊢
  constructor <;> linarith

/-- The radius at any point, compared with the documented one. -/
theorem holder_radius (u v : ℝ) :
    √((holderX + u) ^ 2 + (holderY + v) ^ 2) / π ≤ holderR / π +
      ((holderX / (π * holderR)) * u + 1 / (2 * π * holderR) * u ^ 2) +
      ((holderY / (π * holderR)) * v + 1 / (2 * π * holderR) * v ^ 2) := by
  have hR : 0 < holderR := by linarith [holderR_bounds.1]
  have hR2 : holderR ^ 2 = holderX ^ 2 + holderY ^ 2 := by
    unfold holderR
    rw [sq_sqrt (by positivity)]
  have h : √((holderX + u) ^ 2 + (holderY + v) ^ 2) ≤
      ((holderX + u) ^ 2 + (holderY + v) ^ 2 + holderR ^ 2) / (2 * holderR) := by
    rw [le_div_iff₀ (by positivity)]
    have h1 := sq_sqrt (show 0 ≤ (holderX + u) ^ 2 + (holderY + v) ^ 2 by positivity)
    nlinarith [sq_nonneg (√((holderX + u) ^ 2 + (holderY + v) ^ 2) - holderR)]
  have h2 := div_le_div_of_nonneg_right h pi_pos.le
  refine h2.trans (le_of_eq ?_)
  have hp := pi_pos
  field_simp
  rw [hR2]
  ring

set_option maxHeartbeats 1000000 in
/-- No point of the domain is lower than the documented ones, up to `10⁻⁷`. -/
theorem holder_bound {x y : ℝ} (hx : |x| ≤ 10) (hy : |y| ≤ 10) :
    |sin x * cos y * exp (|1 - √(x ^ 2 + y ^ 2) / π|)| ≤ -holderMin + 1 / 10000000 := by
  have hval := abs_lt.1 holderMin_value
  obtain ⟨r1, r2⟩ := holderR_bounds
  have hp1 := pi_gt_d20
  have hp2 := pi_lt_d20
  rw [abs_mul, abs_mul, abs_of_pos (exp_pos _)]
  rcases le_or_gt (√(x ^ 2 + y ^ 2) / π) 1 with hr | hr
  · -- inside the circle of radius π
    have h1 : exp (|1 - √(x ^ 2 + y ^ 2) / π|) ≤ exp 1 := by
      rw [exp_le_exp, abs_of_nonneg (by linarith)]
      have : 0 ≤ √(x ^ 2 + y ^ 2) / π := by positivity
      linarith
    have h2 := exp_one_lt_d9
    have h3 : |sin x| * |cos y| ≤ 1 * 1 :=
      mul_le_mul (abs_sin_le_one x) (abs_cos_le_one y) (abs_nonneg _) (by norm_num)
    have h4 : |sin x| * |cos y| * exp (|1 - √(x ^ 2 + y ^ 2) / π|) ≤ 1 * 1 * exp 1 :=
      mul_le_mul h3 h1 (exp_pos _).le (by norm_num)
    norm_num at h2 h4 hval ⊢
    linarith [hval.1, hval.2]
  · rw [abs_of_nonpos (by linarith : 1 - √(x ^ 2 + y ^ 2) / π ≤ 0), holder_sin x, holder_cos y]
    obtain ⟨u, hu⟩ : ∃ u, |x| = holderX + u := ⟨|x| - holderX, by ring⟩
    obtain ⟨v, hv⟩ : ∃ v, |y| = holderY + v := ⟨|y| - holderY, by ring⟩
    have hrad := holder_radius u v
    rw [← sq_abs x, ← sq_abs y, hu, hv]
    have hx0 := abs_nonneg x
    have hy0 := abs_nonneg y
    rw [hu] at hx hx0
    rw [hv] at hy hy0
    have hπR : 0 < π * holderR := by positivity
    -- the slopes
    have pr1 : 39.5251 < π * holderR := by nlinarith
    have pr2 : π * holderR < 39.5252 := by nlinarith
    have A1 : 0.203793 < holderX / (π * holderR) := by
      rw [lt_div_iff₀ hπR]; unfold holderX; norm_num at pr2 ⊢; linarith
    have A2 : holderX / (π * holderR) < 0.203797 := by
      rw [div_lt_iff₀ hπR]; unfold holderX; norm_num at pr1 ⊢; linarith
    have B1 : 0.244516 < holderY / (π * holderR) := by
      rw [lt_div_iff₀ hπR]; unfold holderY; norm_num at pr2 ⊢; linarith
    have B2 : holderY / (π * holderR) < 0.244519 := by
      rw [div_lt_iff₀ hπR]; unfold holderY; norm_num at pr1 ⊢; linarith
    have K1 : 0 ≤ 1 / (2 * π * holderR) := by positivity
    have K2 : 1 / (2 * π * holderR) ≤ 0.0127 := by
      rw [div_le_iff₀ (by positivity)]; norm_num at pr1 ⊢; linarith
    obtain ⟨a1, a2⟩ := holder_cos_t
    obtain ⟨b1, b2⟩ := holder_cos_w
    obtain ⟨c1, c2⟩ := holder_sin_t
    obtain ⟨d1, d2⟩ := holder_sin_w
    obtain ⟨e, he, hte⟩ := holder_t
    obtain ⟨f, hf, hwf⟩ := holder_w
    have he' := abs_lt.1 he
    have hf' := abs_lt.1 hf
    have ct0 : 0 < cos (holderX - 5 * π / 2) := by linarith
    have cw0 : 0 < cos (holderY - 3 * π) := by linarith
    have T1 : 0.20379 < sin (holderX - 5 * π / 2) / cos (holderX - 5 * π / 2) := by
      rw [lt_div_iff₀ ct0]; norm_num at a2 c1 ⊢; linarith
    have T2 : sin (holderX - 5 * π / 2) / cos (holderX - 5 * π / 2) < 0.203793 := by
      rw [div_lt_iff₀ ct0]; norm_num at a1 c2 ⊢; linarith
    have W1 : 0.244516 < sin (holderY - 3 * π) / cos (holderY - 3 * π) := by
      rw [lt_div_iff₀ cw0]; norm_num at b2 d1 ⊢; linarith
    have W2 : sin (holderY - 3 * π) / cos (holderY - 3 * π) < 0.244519 := by
      rw [div_lt_iff₀ cw0]; norm_num at b1 d2 ⊢; linarith
    have cx := holder_core (t := holderX - 5 * π / 2)
      (T := sin (holderX - 5 * π / 2) / cos (holderX - 5 * π / 2))
      (a := holderX / (π * holderR)) (k := 1 / (2 * π * holderR)) (u := u)
      (by rw [hte]; norm_num at he' ⊢; linarith) (by rw [hte]; norm_num at he' ⊢; linarith)
      (div_mul_cancel₀ _ ct0.ne').symm (by linarith) (by linarith)
      (by rw [hte]; norm_num at he' A1 ⊢; linarith) (by linarith)
      (by rw [abs_le]; norm_num at A1 A2 T1 T2 ⊢; constructor <;> linarith)
      K1 K2 (by unfold holderX at hx0; norm_num at hx0 ⊢; linarith)
      (by norm_num at hp1 ⊢; linarith) (fun _ => by linarith)
    have cy := holder_core (t := holderY - 3 * π)
      (T := sin (holderY - 3 * π) / cos (holderY - 3 * π))
      (a := holderY / (π * holderR)) (k := 1 / (2 * π * holderR)) (u := v)
      (by rw [hwf]; norm_num at hf' ⊢; linarith) (by rw [hwf]; norm_num at hf' ⊢; linarith)
      (div_mul_cancel₀ _ cw0.ne').symm (by linarith) (by linarith)
      (by rw [hwf]; norm_num at hf' B1 ⊢; linarith) (by linarith)
      (by rw [abs_le]; norm_num at B1 B2 W1 W2 ⊢; constructor <;> linarith)
      K1 K2 (by unfold holderY at hy0; norm_num at hy0 ⊢; linarith)
      (by norm_num at hp1 ⊢; linarith) (fun hcon => by norm_num at hp1 ⊢; linarith)
    rw [show holderX - 5 * π / 2 + u = holderX + u - 5 * π / 2 by ring] at cx
    rw [show holderY - 3 * π + v = holderY + v - 3 * π by ring] at cy
    -- put together
    have hexp : exp (-(1 - √((holderX + u) ^ 2 + (holderY + v) ^ 2) / π)) ≤
        exp (holderR / π - 1) *
        exp (holderX / (π * holderR) * u + 1 / (2 * π * holderR) * u ^ 2) *
        exp (holderY / (π * holderR) * v + 1 / (2 * π * holderR) * v ^ 2) := by
      rw [← exp_add, ← exp_add, exp_le_exp]
      linarith
    have h1 := mul_le_mul_of_nonneg_left hexp (mul_nonneg (abs_nonneg (cos (holderX + u - 5 * π / 2)))
      (abs_nonneg (cos (holderY + v - 3 * π))))
    have h2 := mul_le_mul cx cy (by positivity) (by positivity)
    have h3 := mul_le_mul_of_nonneg_left h2 (exp_pos (holderR / π - 1)).le
    have h4 : -holderMin * (1 + 1 / 1000000000) * (1 + 1 / 1000000000) ≤
        -holderMin + 1 / 10000000 := by
      norm_num at hval ⊢
      linarith [hval.1, hval.2]
    refine h1.trans (le_trans (le_of_eq ?_) (h3.trans (le_trans (le_of_eq ?_) h4)))
    · ring
    · unfold holderMin; ring

/-- Hölder table: at the four documented points `(±8.05502, ±9.66459)` the function has the same
value, which agrees with the documented `-19.2085` to the last digit, and no point of the domain is
lower by more than `10⁻⁷`. -/
theorem C46_holdertable : ∃ v : ℝ, |v - -19.2085| < 0.00005 ∧
    (∀ p : Vec 2 ℝ, |p 0| = 8.05502 → |p 1| = 9.66459 →
      holdertable (fun _ : Fin 1 => p) = .ok fun _ => v) ∧
    ∀ n (x : Mat n 2 ℝ) c, holdertable x = .ok c → ∀ i, v - 1 / 10000000 ≤ c i := by
  refine ⟨holderMin, holderMin_value, ?_, ?_⟩
  · intro p h0 h1
    have := holdertable_form.val 1 (fun _ => p) (fun _ j => by
      rw [← abs_le]
      fin_cases j
      · show |p 0| ≤ 10; rw [h0]; norm_num
      · show |p 1| ≤ 10; rw [h1]; norm_num)
    rw [this]
    congr 1
    funext i
    have hR : √(p 0 ^ 2 + p 1 ^ 2) = holderR := by
      rw [← sq_abs (p 0), ← sq_abs (p 1), h0, h1]; rfl
    have hr : 1 < holderR / π := by
      rw [lt_div_iff₀ pi_pos]
      linarith [holderR_bounds.1, pi_lt_four]
    rw [hR, abs_mul, abs_mul, abs_of_pos (exp_pos _), abs_of_nonpos (by linarith : 1 - holderR / π ≤ 0), holder_sin (p 0),
      holder_cos (p 1),
      h0, h1]
    unfold holderMin
    have e1 : |cos (8.05502 - 5 * π / 2)| = cos (holderX - 5 * π / 2) :=
      abs_of_pos (by have := holder_cos_t.1; unfold holderX at this; linarith)
    have e2 : |cos (9.66459 - 3 * π)| = cos (holderY - 3 * π) :=
      abs_of_pos (by have := holder_cos_w.1; unfold holderY at this; linarith)
    rw [e1, e2, neg_sub]
  · intro n x c hc i
    obtain ⟨hbox, rfl⟩ := holdertable_form.inBox hc
    have := holder_bound (abs_le.2 (hbox i 0)) (abs_le.2 (hbox i 1))
    dsimp only
    linarith

end PySwarms.Bench
