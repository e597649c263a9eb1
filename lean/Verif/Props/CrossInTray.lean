import Verif.Props.Functions
import Mathlib.Analysis.Real.Pi.Bounds
import Mathlib.Analysis.Complex.ExponentialBounds
import Mathlib.Analysis.SpecialFunctions.Trigonometric.ArctanDeriv

/-! # C46: the cross-in-tray function -/

namespace PySwarms.Bench

open Real

/-- The coordinate of the minimisers: `arctan (π √2)`. -/
noncomputable def trayPoint : ℝ := arctan (π * √2)

/-- Its cotangent. -/
noncomputable def trayCot : ℝ := 1 / (π * √2)

theorem sqrt_two_pos : 0 < √(2 : ℝ) := by positivity

theorem trayCot_pos : 0 < trayCot := by unfold trayCot; have := pi_pos; positivity

theorem trayCot_lt : trayCot < 1 / 3 := by
  unfold trayCot
  have h1 := pi_gt_three
  have h2 : 1 < √(2 : ℝ) := by rw [lt_sqrt (by norm_num)]; norm_num
  rw [div_lt_div_iff₀ (by positivity) (by norm_num)]
  nlinarith

theorem trayPoint_pos : 0 < trayPoint := by
  unfold trayPoint
  rw [arctan_pos]
  have := pi_pos
  positivity

theorem trayPoint_lt : trayPoint < π / 2 := arctan_lt_pi_div_two _

theorem sin_trayPoint_pos : 0 < sin trayPoint :=
  sin_pos_of_pos_of_lt_pi trayPoint_pos (by have := trayPoint_lt; have := pi_pos; linarith)

theorem cos_trayPoint : cos trayPoint = trayCot * sin trayPoint := by
  have hc : 0 < cos trayPoint := cos_pos_of_mem_Ioo
    ⟨by have := trayPoint_pos; have := pi_pos; linarith, trayPoint_lt⟩
  have ht : tan trayPoint = π * √2 := tan_arctan _
  rw [tan_eq_sin_div_cos, div_eq_iff hc.ne'] at ht
  rw [ht]
  unfold trayCot
  have := pi_pos
  field_simp

/-- The key inequality: `|sin t| e^(-a t)` is largest at `trayPoint`, for `t ≥ 0`. -/
theorem tray_core (t : ℝ) (ht : 0 ≤ t) :
    |sin t| * exp (-trayCot * t) ≤ sin trayPoint * exp (-trayCot * trayPoint) ∧
    (|sin t| * exp (-trayCot * t) = sin trayPoint * exp (-trayCot * trayPoint) → t = trayPoint) := by
  have ha := trayCot_pos
  have ha3 := trayCot_lt
  have hS := sin_trayPoint_pos
  have hp0 := trayPoint_pos
  have hp1 := trayPoint_lt
  have hπ3 := pi_gt_three
  have hπ4 := pi_lt_four
  -- it is enough to compare with the exponential
  have main : t ≠ trayPoint → |sin t| < sin trayPoint * exp (trayCot * (t - trayPoint)) := by
    intro hne
    obtain ⟨u, rfl⟩ : ∃ u, t = trayPoint + u := ⟨t - trayPoint, by ring⟩
    have hu : u ≠ 0 := by rintro rfl; simp at hne
    have hsin : sin (trayPoint + u) = sin trayPoint * (cos u + trayCot * sin u) := by
      rw [sin_add, cos_trayPoint]
      ring
    have hexp := add_one_lt_exp (mul_ne_zero ha.ne' hu)
    rw [show trayPoint + u - trayPoint = u by ring]
    rcases le_or_gt 0 (sin (trayPoint + u)) with h | h
    · rw [abs_of_nonneg h, hsin]
      apply mul_lt_mul_of_pos_left _ hS
      refine lt_of_le_of_lt ?_ hexp
      rcases le_total 0 u with hu0 | hu0
      · have h1 := cos_le_one u
        have h2 := mul_le_mul_of_nonneg_left (sin_le hu0) ha.le
        linarith
      · -- `u = -s` with `0 ≤ s ≤ trayPoint`
        obtain ⟨s, rfl⟩ : ∃ s, u = -s := ⟨-u, by ring⟩
        have hs0 : 0 ≤ s := by linarith
        have hs1 : s ≤ 2 := by linarith
        rw [cos_neg, sin_neg]
        have h1 := sin_ge_sub_cube hs0
        have h2 := cos_le_one_sub_mul_cos_sq (x := s) (by rw [abs_of_nonneg hs0]; linarith)
        have h3 : 1 / 8 * s ^ 2 ≤ 2 / π ^ 2 * s ^ 2 := by
          apply mul_le_mul_of_nonneg_right _ (sq_nonneg s)
          rw [div_le_div_iff₀ (by norm_num) (by positivity)]
          nlinarith
        have h4 : trayCot * (s ^ 3 / 6) ≤ 1 / 8 * s ^ 2 := by
          have h5 : trayCot * s ≤ 2 / 3 := by nlinarith
          have h6 := mul_le_mul_of_nonneg_right h5 (sq_nonneg s)
          nlinarith
        have h7 := mul_le_mul_of_nonneg_left h1 ha.le
        nlinarith
    · rw [abs_of_neg h, hsin]
      have hu1 : 1 < u := by
        by_contra hcon
        have hpos := sin_nonneg_of_nonneg_of_le_pi ht (by linarith)
        linarith
      rw [← mul_neg]
      apply mul_lt_mul_of_pos_left _ hS
      refine lt_of_le_of_lt ?_ hexp
      have h1 := neg_one_le_cos u
      have h2 := mul_le_mul_of_nonneg_left (neg_one_le_sin u) ha.le
      nlinarith
  have hexp : exp (trayCot * (t - trayPoint)) * exp (-trayCot * t) = exp (-trayCot * trayPoint) := by
    rw [← exp_add]
    congr 1
    ring
  by_cases hne : t = trayPoint
  · subst hne
    rw [abs_of_pos hS]
    exact ⟨le_refl _, fun _ => rfl⟩
  · have := mul_lt_mul_of_pos_right (main hne) (exp_pos (-trayCot * t))
    rw [mul_assoc, hexp] at this
    exact ⟨this.le, fun h => absurd h this.ne⟩

/-- The value of the function as a function of the product. -/
noncomputable def trayVal (m : ℝ) : ℝ := -0.0001 * (m * exp 100 + 1) ^ (0.1 : ℝ)

theorem trayVal_anti {a b : ℝ} (ha : 0 ≤ a) (h : a < b) : trayVal b < trayVal a := by
  unfold trayVal
  have h1 : (a * exp 100 + 1) ^ (0.1 : ℝ) < (b * exp 100 + 1) ^ (0.1 : ℝ) := by
    apply rpow_lt_rpow
    · have := exp_pos 100; positivity
    · have := mul_lt_mul_of_pos_right h (exp_pos 100)
      linarith
    · norm_num
  linarith

/-- The largest value of `|sin t| e^(-a t)`. -/
noncomputable def trayMax : ℝ := sin trayPoint * exp (-trayCot * trayPoint)

theorem trayMax_pos : 0 < trayMax := mul_pos sin_trayPoint_pos (exp_pos _)

/-- The product of sines and exponential, bounded by the separate variables. -/
theorem tray_product (x y : ℝ) (hx : |x| ≤ 10) (hy : |y| ≤ 10) :
    abs (sin x * sin y * exp (abs (100 - √(x ^ 2 + y ^ 2) / π))) ≤
      (abs (sin (abs x)) * exp (-trayCot * |x|)) * (abs (sin (abs y)) * exp (-trayCot * |y|)) * exp 100 ∧
    (|x| = |y| → abs (sin x * sin y * exp (abs (100 - √(x ^ 2 + y ^ 2) / π))) =
      (abs (sin (abs x)) * exp (-trayCot * |x|)) * (abs (sin (abs y)) * exp (-trayCot * |y|)) * exp 100) := by
  have hπ := pi_gt_three
  have hsx : ∀ z : ℝ, |sin (|z|)| = |sin z| := by
    intro z
    rcases abs_choice z with h | h <;> rw [h]
    rw [sin_neg, abs_neg]
  have hr : √(x ^ 2 + y ^ 2) ≤ 20 := by
    rw [sqrt_le_left (by norm_num)]
    rw [← sq_abs x, ← sq_abs y]
    have := abs_nonneg x
    have := abs_nonneg y
    nlinarith
  have hrp : √(x ^ 2 + y ^ 2) / π ≤ 20 := by
    rw [div_le_iff₀ pi_pos]
    nlinarith
  have hlow : (|x| + |y|) / √2 ≤ √(x ^ 2 + y ^ 2) := by
    apply le_sqrt_of_sq_le
    rw [div_pow, sq_sqrt (by norm_num), div_le_iff₀ (by norm_num), ← sq_abs x, ← sq_abs y]
    nlinarith [sq_nonneg (|x| - |y|)]
  have hcot : trayCot * (|x| + |y|) = (|x| + |y|) / √2 / π := by
    unfold trayCot
    have := pi_pos
    field_simp
  rw [abs_of_nonneg (by linarith : 0 ≤ 100 - √(x ^ 2 + y ^ 2) / π), abs_mul, abs_mul,
    abs_of_pos (exp_pos _), hsx, hsx]
  have hprod : |sin x| * exp (-trayCot * |x|) * (|sin y| * exp (-trayCot * |y|)) * exp 100 =
      |sin x| * |sin y| * exp (100 - trayCot * (|x| + |y|)) := by
    rw [show 100 - trayCot * (|x| + |y|) = -trayCot * |x| + -trayCot * |y| + 100 by ring, exp_add,
      exp_add]
    ring
  rw [hprod]
  constructor
  · apply mul_le_mul_of_nonneg_left _ (by positivity)
    rw [exp_le_exp, hcot]
    have := div_le_div_of_nonneg_right hlow pi_pos.le
    linarith
  · intro hxy
    congr 2
    rw [hcot, hxy]
    congr 2
    rw [← sq_abs x, ← sq_abs y, hxy, eq_div_iff (by positivity)]
    rw [← two_mul, sqrt_mul (by norm_num), sqrt_sq (abs_nonneg y)]
    rw [mul_right_comm, mul_self_sqrt (by norm_num)]
    ring

/-- Cross-in-tray: the global minimum is attained exactly at the four points with
`|x| = |y| = arctan (π √2)`. -/
theorem C46_crossintray :
    (∀ p : Vec 2 ℝ, |p 0| = trayPoint → |p 1| = trayPoint →
      crossintray (fun _ : Fin 1 => p) = .ok fun _ => trayVal (trayMax * trayMax)) ∧
    ∀ n (x : Mat n 2 ℝ) c, crossintray x = .ok c → ∀ i, trayVal (trayMax * trayMax) ≤ c i ∧
      (c i = trayVal (trayMax * trayMax) ↔ |x i 0| = trayPoint ∧ |x i 1| = trayPoint) := by
  have hp0 := trayPoint_pos
  have hp1 := trayPoint_lt
  have hπ4 := pi_lt_four
  -- the value at the four points
  have hat : ∀ x y : ℝ, |x| = trayPoint → |y| = trayPoint →
      -0.0001 * (abs (sin x * sin y * exp (abs (100 - √(x ^ 2 + y ^ 2) / π))) + 1) ^ (0.1 : ℝ) =
        trayVal (trayMax * trayMax) := by
    intro x y hx hy
    rw [(tray_product x y (by linarith) (by linarith)).2 (hx.trans hy.symm), hx, hy,
      abs_of_pos sin_trayPoint_pos]
    rfl
  constructor
  · intro p h0 h1
    have := crossintray_form.val 1 (fun _ => p) (fun _ j => by
      rw [← abs_le]
      fin_cases j
      · show |p 0| ≤ 10; linarith
      · show |p 1| ≤ 10; linarith)
    rw [this]
    congr 1
    funext i
    exact hat _ _ h0 h1
  · intro n x c hc i
    obtain ⟨hbox, rfl⟩ := crossintray_form.inBox hc
    have hx : |x i 0| ≤ 10 := abs_le.2 (hbox i 0)
    have hy : |x i 1| ≤ 10 := abs_le.2 (hbox i 1)
    clear hc hbox
    dsimp only
    generalize x i 0 = a at hx ⊢
    generalize x i 1 = b at hy ⊢
    obtain ⟨hle, -⟩ := tray_product a b hx hy
    obtain ⟨ha1, ha2⟩ := tray_core |a| (abs_nonneg a)
    obtain ⟨hb1, hb2⟩ := tray_core |b| (abs_nonneg b)
    have hM := trayMax_pos
    change _ ≤ trayMax at ha1
    change _ ≤ trayMax at hb1
    change (_ = trayMax → _) at ha2
    change (_ = trayMax → _) at hb2
    have hPa : 0 ≤ |sin (|a|)| * exp (-trayCot * |a|) := by positivity
    have hPb : 0 ≤ |sin (|b|)| * exp (-trayCot * |b|) := by positivity
    generalize |sin (|a|)| * exp (-trayCot * |a|) = A at *
    generalize |sin (|b|)| * exp (-trayCot * |b|) = B at *
    -- the value is at least `trayVal (A * B)`
    have hval : trayVal (A * B) ≤
        -0.0001 * (abs (sin a * sin b * exp (abs (100 - √(a ^ 2 + b ^ 2) / π))) + 1) ^ (0.1 : ℝ) := by
      unfold trayVal
      have := rpow_le_rpow (z := (0.1 : ℝ)) (by positivity)
        (add_le_add_left hle 1) (by norm_num)
      linarith
    have hAB : A * B ≤ trayMax * trayMax := mul_le_mul ha1 hb1 hPb hM.le
    rcases lt_or_eq_of_le hAB with h | h
    · have hlt := trayVal_anti (mul_nonneg hPa hPb) h
      refine ⟨by linarith, fun heq => ?_, fun hh => ?_⟩
      · rw [heq] at hval; linarith
      · exact hat a b hh.1 hh.2
    · rw [h] at hval
      refine ⟨hval, fun _ => ?_, fun hh => hat a b hh.1 hh.2⟩
      have hA : A = trayMax := by
        by_contra hne
        have hlt := lt_of_le_of_ne ha1 hne
        have h1 : A * B ≤ A * trayMax := mul_le_mul_of_nonneg_left hb1 hPa
        have h2 : A * trayMax < trayMax * trayMax := mul_lt_mul_of_pos_right hlt hM
        linarith
      have hB : B = trayMax := by
        rw [hA] at h
        exact mul_left_cancel₀ hM.ne' h
      exact ⟨ha2 hA, hb2 hB⟩

/-! ### The documented decimals -/

/-- The alternating series for `arctan`, cut after four and five terms. -/
theorem arctan_bounds {z : ℝ} (hz : 0 ≤ z) :
    z - z ^ 3 / 3 + z ^ 5 / 5 - z ^ 7 / 7 ≤ arctan z ∧
      arctan z ≤ z - z ^ 3 / 3 + z ^ 5 / 5 - z ^ 7 / 7 + z ^ 9 / 9 := by
  have hd : ∀ y : ℝ, HasDerivAt
      (fun z : ℝ => arctan z - (z - z ^ 3 / 3 + z ^ 5 / 5 - z ^ 7 / 7))
      (y ^ 8 / (1 + y ^ 2)) y := by
    intro y
    have h := (hasDerivAt_arctan y).sub
      (((((hasDerivAt_id y).sub ((hasDerivAt_pow 3 y).div_const 3)).add
        ((hasDerivAt_pow 5 y).div_const 5)).sub ((hasDerivAt_pow 7 y).div_const 7)))
    refine h.congr_deriv ?_
    have : (1 + y ^ 2) ≠ 0 := by positivity
    norm_num
    field_simp
    ring
  have hd' : ∀ y : ℝ, HasDerivAt
      (fun z : ℝ => z - z ^ 3 / 3 + z ^ 5 / 5 - z ^ 7 / 7 + z ^ 9 / 9 - arctan z)
      (y ^ 10 / (1 + y ^ 2)) y := by
    intro y
    have h := (((((hasDerivAt_id y).sub ((hasDerivAt_pow 3 y).div_const 3)).add
        ((hasDerivAt_pow 5 y).div_const 5)).sub ((hasDerivAt_pow 7 y).div_const 7)).add
        ((hasDerivAt_pow 9 y).div_const 9)).sub (hasDerivAt_arctan y)
    refine h.congr_deriv ?_
    have : (1 + y ^ 2) ≠ 0 := by positivity
    norm_num
    field_simp
    ring
  have m1 : Monotone (fun z : ℝ => arctan z - (z - z ^ 3 / 3 + z ^ 5 / 5 - z ^ 7 / 7)) := by
    apply monotone_of_deriv_nonneg (fun y => (hd y).differentiableAt)
    intro y
    rw [(hd y).deriv]
    positivity
  have m2 : Monotone
      (fun z : ℝ => z - z ^ 3 / 3 + z ^ 5 / 5 - z ^ 7 / 7 + z ^ 9 / 9 - arctan z) := by
    apply monotone_of_deriv_nonneg (fun y => (hd' y).differentiableAt)
    intro y
    rw [(hd' y).deriv]
    positivity
  have h1 := m1 hz
  have h2 := m2 hz
  simp only [arctan_zero] at h1 h2
  norm_num at h1 h2
  constructor <;> linarith

theorem trayCot_bounds : 0.2250790 < trayCot ∧ trayCot < 0.2250792 := by
  have h1 := pi_gt_d6
  have h2 := pi_lt_d6
  have s1 : 1.4142135 < √(2 : ℝ) := by rw [lt_sqrt (by norm_num)]; norm_num
  have s2 : √(2 : ℝ) < 1.4142136 := by rw [sqrt_lt' (by norm_num)]; norm_num
  unfold trayCot
  constructor
  · rw [lt_div_iff₀ (by positivity)]
    have : π * √2 < 3.141593 * 1.4142136 := by
      apply mul_lt_mul'' h2 s2 pi_pos.le (sqrt_nonneg _)
    norm_num at this ⊢
    linarith
  · rw [div_lt_iff₀ (by positivity)]
    have : 3.141592 * 1.4142135 < π * √2 := by
      apply mul_lt_mul'' h1 s1 (by norm_num) (by norm_num)
    norm_num at this ⊢
    linarith

/-- The documented coordinate `1.34941`, correct to its last digit. -/
theorem C46_crossintray_point : |trayPoint - 1.34941| < 0.000005 := by
  have h1 := pi_gt_d6
  have h2 := pi_lt_d6
  obtain ⟨c1, c2⟩ := trayCot_bounds
  have hp : trayPoint = π / 2 - arctan trayCot := by
    unfold trayPoint trayCot
    rw [one_div, arctan_inv_of_pos (by positivity)]
    ring
  have b1 := (arctan_bounds (z := 0.2250790) (by norm_num)).1
  have b2 := (arctan_bounds (z := 0.2250792) (by norm_num)).2
  have a1 := arctan_strictMono c1
  have a2 := arctan_strictMono c2
  have l := b1.trans_lt a1
  have u := a2.trans_le b2
  rw [hp, abs_lt]
  norm_num at l u h1 h2 ⊢
  constructor <;> linarith

/-- The documented value `-2.06261`, correct to its last digit. -/
theorem C46_crossintray_value : |trayVal (trayMax * trayMax) - -2.06261| < 0.000005 := by
  obtain ⟨c1, c2⟩ := trayCot_bounds
  have hp := abs_lt.1 C46_crossintray_point
  have hsq : sin trayPoint ^ 2 * (1 + trayCot ^ 2) = 1 := by
    have := sin_sq_add_cos_sq trayPoint
    rw [cos_trayPoint] at this
    linarith
  -- the exponent
  have e1 : 0.2250790 * 1.349405 ≤ trayCot * trayPoint :=
    mul_le_mul c1.le (by linarith [hp.1]) (by norm_num) trayCot_pos.le
  have e2 : trayCot * trayPoint ≤ 0.2250792 * 1.349415 :=
    mul_le_mul c2.le (by linarith [hp.2]) trayPoint_pos.le (by norm_num)
  have x1 := (abs_le.1 (exp_bound (x := 2 * (0.2250790 * 1.349405)) (by rw [abs_le]; norm_num)
    (n := 9) (by norm_num))).1
  have x2 := (abs_le.1 (exp_bound (x := 2 * (0.2250792 * 1.349415)) (by rw [abs_le]; norm_num)
    (n := 9) (by norm_num))).2
  have l1 : 1.835728 < exp (2 * (0.2250790 * 1.349405)) := by
    rw [abs_of_pos (by norm_num)] at x1
    norm_num [Finset.sum_range_succ, Nat.factorial] at x1 ⊢
    linarith
  have l2 : exp (2 * (0.2250792 * 1.349415)) < 1.835747 := by
    rw [abs_of_pos (by norm_num)] at x2
    norm_num [Finset.sum_range_succ, Nat.factorial] at x2 ⊢
    linarith
  have q1 : 1.835728 < exp (2 * (trayCot * trayPoint)) := l1.trans_le (exp_le_exp.2 (by linarith))
  have q2 : exp (2 * (trayCot * trayPoint)) < 1.835747 := lt_of_le_of_lt (exp_le_exp.2 (by linarith)) l2
  -- the product
  have hT : trayMax * trayMax * exp 100 *
      ((1 + trayCot ^ 2) * exp (2 * (trayCot * trayPoint))) = exp 1 ^ 100 := by
    have h100 : exp 1 ^ 100 = exp 100 := by rw [← exp_nat_mul]; norm_num
    have he : exp (-trayCot * trayPoint) * exp (-trayCot * trayPoint) *
        exp (2 * (trayCot * trayPoint)) = 1 := by
      rw [← exp_add, ← exp_add, exp_eq_one_iff]
      ring
    rw [h100]
    unfold trayMax
    calc _ = (sin trayPoint ^ 2 * (1 + trayCot ^ 2)) * (exp (-trayCot * trayPoint) *
          exp (-trayCot * trayPoint) * exp (2 * (trayCot * trayPoint))) * exp 100 := by ring
      _ = exp 100 := by rw [hsq, he]; ring
  have k1 : (1 + 0.2250790 ^ 2) * 1.835728 ≤
      (1 + trayCot ^ 2) * exp (2 * (trayCot * trayPoint)) := by
    apply mul_le_mul _ q1.le (by norm_num) (by positivity)
    have := pow_le_pow_left₀ (by norm_num) c1.le 2
    linarith
  have k2 : (1 + trayCot ^ 2) * exp (2 * (trayCot * trayPoint)) ≤
      (1 + 0.2250792 ^ 2) * 1.835747 := by
    apply mul_le_mul _ q2.le (exp_pos _).le (by norm_num)
    have := pow_le_pow_left₀ trayCot_pos.le c2.le 2
    linarith
  have g1 := pow_le_pow_left₀ (by norm_num) exp_one_gt_d9.le 100
  have g2 := pow_le_pow_left₀ (exp_pos 1).le exp_one_lt_d9.le 100
  rw [← hT] at g1 g2
  have hpos : 0 ≤ trayMax * trayMax * exp 100 :=
    mul_nonneg (mul_nonneg trayMax_pos.le trayMax_pos.le) (exp_pos _).le
  have T1 : 20626.07 ^ 10 ≤ trayMax * trayMax * exp 100 := by
    have := g1.trans (mul_le_mul_of_nonneg_left k2 hpos)
    rw [← div_le_iff₀ (by norm_num)] at this
    refine le_trans ?_ this
    norm_num
  have T2 : trayMax * trayMax * exp 100 + 1 ≤ 20626.145 ^ 10 := by
    have := (mul_le_mul_of_nonneg_left k1 hpos).trans g2
    rw [← le_div_iff₀ (by norm_num)] at this
    refine (add_le_add_left this 1).trans ?_
    norm_num
  have R : ∀ a : ℝ, 0 ≤ a → (a ^ 10) ^ (0.1 : ℝ) = a := by
    intro a ha
    rw [← rpow_natCast, ← rpow_mul ha]
    norm_num
  have r1 := rpow_le_rpow (z := (0.1 : ℝ)) (by norm_num) (T1.trans (le_add_of_nonneg_right zero_le_one))
    (by norm_num)
  have r2 := rpow_le_rpow (z := (0.1 : ℝ)) (by linarith) T2 (by norm_num)
  rw [R _ (by norm_num)] at r1 r2
  unfold trayVal
  rw [abs_lt]
  constructor <;> linarith

end PySwarms.Bench
