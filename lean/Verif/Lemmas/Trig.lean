import Mathlib.Analysis.SpecialFunctions.Trigonometric.Bounds
import Mathlib.Analysis.SpecialFunctions.Trigonometric.Deriv
import Mathlib.Analysis.Calculus.Deriv.MeanValue

/-! Taylor bounds for sine and cosine. -/

namespace PySwarms.Bench

open Real Set

/-- A function with nonnegative derivative on `[0, ∞)` that starts at `0` is nonnegative there. -/
theorem nonneg_of_deriv {f f' : ℝ → ℝ} (hf : ∀ x, HasDerivAt f (f' x) x) (h0 : f 0 = 0)
    (hn : ∀ x, 0 ≤ x → 0 ≤ f' x) {x : ℝ} (hx : 0 ≤ x) : 0 ≤ f x := by
  have hm : MonotoneOn f (Ici 0) := by
    apply monotoneOn_of_deriv_nonneg (convex_Ici 0)
    · exact fun y _ => (hf y).continuousAt.continuousWithinAt
    · exact fun y _ => (hf y).differentiableAt.differentiableWithinAt
    · intro y hy
      rw [interior_Ici] at hy
      rw [(hf y).deriv]
      exact hn y (le_of_lt hy)
  have := hm (mem_Ici.2 le_rfl) (mem_Ici.2 hx) hx
  rwa [h0] at this

theorem cos_le_four_aux {x : ℝ} (hx : 0 ≤ x) : cos x ≤ 1 - x ^ 2 / 2 + x ^ 4 / 24 := by
  have := nonneg_of_deriv (f := fun x => 1 - x ^ 2 / 2 + x ^ 4 / 24 - cos x)
    (f' := fun x => -x + x ^ 3 / 6 + sin x) (fun x => by
      have h := ((((hasDerivAt_const x (1 : ℝ)).sub ((hasDerivAt_pow 2 x).div_const 2)).add
        ((hasDerivAt_pow 4 x).div_const 24))).sub (hasDerivAt_cos x)
      refine h.congr_deriv ?_
      norm_num
      ring) (by norm_num)
    (fun x hx => by have := sin_ge_sub_cube hx; linarith) hx
  linarith

/-- `cos x ≤ 1 - x²/2 + x⁴/24`, for all `x`. -/
theorem cos_le_four (x : ℝ) : cos x ≤ 1 - x ^ 2 / 2 + x ^ 4 / 24 := by
  rcases le_total 0 x with h | h
  · exact cos_le_four_aux h
  · have := cos_le_four_aux (neg_nonneg.2 h)
    rw [cos_neg] at this
    nlinarith

/-- `sin x ≤ x - x³/6 + x⁵/120`, for `x ≥ 0`. -/
theorem sin_le_five {x : ℝ} (hx : 0 ≤ x) : sin x ≤ x - x ^ 3 / 6 + x ^ 5 / 120 := by
  have := nonneg_of_deriv (f := fun x => x - x ^ 3 / 6 + x ^ 5 / 120 - sin x)
    (f' := fun x => 1 - x ^ 2 / 2 + x ^ 4 / 24 - cos x) (fun x => by
      have h := ((((hasDerivAt_id x).sub ((hasDerivAt_pow 3 x).div_const 6)).add
        ((hasDerivAt_pow 5 x).div_const 120))).sub (hasDerivAt_sin x)
      refine h.congr_deriv ?_
      norm_num
      ring) (by norm_num)
    (fun x _ => by have := cos_le_four x; linarith) hx
  linarith

theorem cos_ge_six_aux {x : ℝ} (hx : 0 ≤ x) :
    1 - x ^ 2 / 2 + x ^ 4 / 24 - x ^ 6 / 720 ≤ cos x := by
  have := nonneg_of_deriv (f := fun x => cos x - (1 - x ^ 2 / 2 + x ^ 4 / 24 - x ^ 6 / 720))
    (f' := fun x => x - x ^ 3 / 6 + x ^ 5 / 120 - sin x) (fun x => by
      have h := (hasDerivAt_cos x).sub
        ((((hasDerivAt_const x (1 : ℝ)).sub ((hasDerivAt_pow 2 x).div_const 2)).add
        ((hasDerivAt_pow 4 x).div_const 24)).sub ((hasDerivAt_pow 6 x).div_const 720))
      refine h.congr_deriv ?_
      norm_num
      ring) (by norm_num)
    (fun x hx => by have := sin_le_five hx; linarith) hx
  linarith

/-- `1 - x²/2 + x⁴/24 - x⁶/720 ≤ cos x`, for all `x`. -/
theorem cos_ge_six (x : ℝ) : 1 - x ^ 2 / 2 + x ^ 4 / 24 - x ^ 6 / 720 ≤ cos x := by
  rcases le_total 0 x with h | h
  · exact cos_ge_six_aux h
  · have := cos_ge_six_aux (neg_nonneg.2 h)
    rw [cos_neg] at this
    have e : (-x) ^ 6 = x ^ 6 := by ring
    rw [e] at this
    nlinarith

/-- `x - x³/6 + x⁵/120 - x⁷/5040 ≤ sin x`, for `x ≥ 0`. -/
theorem sin_ge_five {x : ℝ} (hx : 0 ≤ x) : x - x ^ 3 / 6 + x ^ 5 / 120 - x ^ 7 / 5040 ≤ sin x := by
  have := nonneg_of_deriv (f := fun x => sin x - (x - x ^ 3 / 6 + x ^ 5 / 120 - x ^ 7 / 5040))
    (f' := fun x => cos x - (1 - x ^ 2 / 2 + x ^ 4 / 24 - x ^ 6 / 720)) (fun x => by
      have h := (hasDerivAt_sin x).sub
        ((((hasDerivAt_id x).sub ((hasDerivAt_pow 3 x).div_const 6)).add
        ((hasDerivAt_pow 5 x).div_const 120)).sub ((hasDerivAt_pow 7 x).div_const 5040))
      refine h.congr_deriv ?_
      norm_num
      ring) (by norm_num)
    (fun x _ => by have := cos_ge_six x; linarith) hx
  linarith

end PySwarms.Bench
