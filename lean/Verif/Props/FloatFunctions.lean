import Verif.Lemmas.FloatFunctions
import Verif.Props.Functions

/-! # C113: the benchmark functions in floating point -/

set_option linter.unusedSectionVars false

namespace PySwarms.Fl

variable {d : Nat}

/-! ## C113 -/

/-- Without rounding, and with the exact functions, the model is the one of C45 to C47. -/
theorem C113_exact_two (n : Nat) (x : Mat n 2 ℝ) (c : Vec n ℝ) :
    (Bench.beale x = .ok c → ∀ i, c i = beale id realLib (x i 0) (x i 1)) ∧
    (Bench.booth x = .ok c → ∀ i, c i = booth id (x i 0) (x i 1)) ∧
    (Bench.bukin6 x = .ok c → ∀ i, c i = bukin6 id realLib (x i 0) (x i 1)) ∧
    (Bench.easom x = .ok c → ∀ i, c i = easom id realLib (x i 0) (x i 1)) ∧
    (Bench.goldstein x = .ok c → ∀ i, c i = goldstein id (x i 0) (x i 1)) ∧
    (Bench.himmelblau x = .ok c → ∀ i, c i = himmelblau id (x i 0) (x i 1)) ∧
    (Bench.levi x = .ok c → ∀ i, c i = levi id realLib (x i 0) (x i 1)) ∧
    (Bench.matyas x = .ok c → ∀ i, c i = matyas id (x i 0) (x i 1)) ∧
    (Bench.schaffer2 x = .ok c → ∀ i, c i = schaffer2 id realLib (x i 0) (x i 1)) ∧
    (Bench.threehump x = .ok c → ∀ i, c i = threehump id realLib (x i 0) (x i 1)) := by
  refine ⟨fun h i => ?_, fun h i => ?_, fun h i => ?_, fun h i => ?_, fun h i => ?_, fun h i => ?_,
    fun h i => ?_, fun h i => ?_, fun h i => ?_, fun h i => ?_⟩
  · rw [(Bench.beale_form.inBox h).2]; simp only [beale, sq, id, realLib]; ring
  · rw [(Bench.booth_form.inBox h).2]; simp only [booth, sq, id]; ring
  · rw [(Bench.bukin6_form.inBox h).2]; simp only [bukin6, sq, id, realLib, pow_two]
  · rw [(Bench.easom_form.inBox h).2]; simp only [easom, sq, id, realLib, pow_two]
  · rw [(Bench.goldstein_form.inBox h).2]; simp only [goldstein, sq, id]; ring
  · rw [(Bench.himmelblau_form.inBox h).2]; simp only [himmelblau, sq, id]; ring
  · rw [(Bench.levi_form.inBox h).2]; simp only [levi, sq, id, realLib, pow_two]
  · rw [(Bench.matyas_form.inBox h).2]; simp only [matyas, sq, id, pow_two]
  · rw [(Bench.schaffer2_form.inBox h).2]; simp only [schaffer2, sq, id, realLib, pow_two]
  · rw [(Bench.threehump_form.inBox h).2]; simp only [threehump, sq, id, realLib]; ring

/-- The same for the functions of any number of dimensions, whatever the order of the sums. -/
theorem C113_exact_many (n : Nat) (x : Mat n d ℝ) (c : Vec n ℝ) (t t' : SumTree d)
    (u : SumTree (d - 1)) (ht : t.Full) (ht' : t'.Full) (hu : u.Full) :
    (Bench.sphere x = .ok c → ∀ i, c i = sphere id t (x i)) ∧
    (Bench.rosenbrock x = .ok c → ∀ i, c i = rosenbrock id u (x i)) ∧
    (Bench.rastrigin x = .ok c → ∀ i, c i = rastrigin id realLib t (x i)) ∧
    (Bench.ackley x = .ok c → ∀ i, c i = ackley id realLib t t' (x i)) := by
  refine ⟨fun h i => ?_, fun h i => ?_, fun h i => ?_, fun h i => ?_⟩
  · rw [(Bench.sphere_form.inBox h).2.2]; simp only [sphere, ht.sum_id, sq, id, pow_two]
  · rw [(Bench.rosenbrock_form.inBox h).2.2]; simp only [rosenbrock, hu.sum_id, sq, id, pow_two]
  · rw [(Bench.rastrigin_form.inBox h).2.2]
    simp only [rastrigin, ht.sum_id, sq, id, pow_two, realLib]
    norm_num
  · rw [(Bench.ackley_form.inBox h).2.2]
    simp only [ackley, ht.sum_id, ht'.sum_id, sq, id, pow_two, realLib]
    norm_num

/-- However the results are rounded and in whatever order the sums are taken, these functions never
return a negative number. -/
theorem C113_never_negative (fl : ℚ → ℚ) (h : Rounding fl) (L : Libm ℚ)
    (hs : ∀ t, 0 ≤ L.sqrt t) (t : SumTree d) (u : SumTree (d - 1)) (v : Vec d ℚ) (x y : ℚ) :
    0 ≤ sphere fl t v ∧ 0 ≤ rosenbrock fl u v ∧ 0 ≤ beale fl L x y ∧ 0 ≤ booth fl x y ∧
      0 ≤ bukin6 fl L x y ∧ 0 ≤ himmelblau fl x y ∧ 0 ≤ levi fl L x y := by
  refine ⟨h.sum (fun j => h.sq _) t, h.sum (fun j => h.nonneg (add_nonneg (h.nonneg
    (mul_nonneg (by norm_num) (h.sq _))) (h.sq _))) u,
    h.nonneg (add_nonneg (h.nonneg (add_nonneg (h.sq _) (h.sq _))) (h.sq _)),
    h.nonneg (add_nonneg (h.sq _) (h.sq _)),
    h.nonneg (add_nonneg (h.nonneg (mul_nonneg (by norm_num) (hs _)))
      (h.nonneg (mul_nonneg (h.nonneg (by norm_num)) (abs_nonneg _)))),
    h.nonneg (add_nonneg (h.sq _) (h.sq _)), ?_⟩
  unfold levi
  refine h.nonneg (add_nonneg (h.nonneg (add_nonneg (h.sq _) (h.nonneg (mul_nonneg (h.sq _) ?_))))
    (h.nonneg (mul_nonneg (h.sq _) ?_)))
  · exact h.nonneg (add_nonneg (by norm_num) (h.nonneg (mul_nonneg (by norm_num) (h.sq _))))
  · exact h.nonneg (add_nonneg (by norm_num) (h.sq _))

/-- In float64, `schaffer2` and `rastrigin` are never negative and `easom` is never below -1: rounding
does not take them below the documented minimum. -/
theorem C113_not_below (L : Libm ℚ) (hL : L.Sane) (t : SumTree d) (ht : t.Full)
    (hd : 10 * d ≤ 2 ^ 53) (v : Vec d ℚ) (x y : ℚ) :
    0 ≤ schaffer2 f64 L x y ∧ -1 ≤ easom f64 L x y ∧ 0 ≤ rastrigin f64 L t v := by
  have h := f64_rounding
  have one : f64 1 = 1 := by decide +kernel
  refine ⟨?_, ?_, ?_⟩
  · unfold schaffer2
    refine h.nonneg ?_
    have hden : 1 ≤ sq f64 (f64 (1 + f64 (f64 0.001 * f64 (sq f64 x + sq f64 y)))) := by
      have h1 : 1 ≤ f64 (1 + f64 (f64 0.001 * f64 (sq f64 x + sq f64 y))) := by
        have : (1 : ℚ) ≤ 1 + f64 (f64 0.001 * f64 (sq f64 x + sq f64 y)) := by
          have := h.nonneg (mul_nonneg (h.nonneg (show (0 : ℚ) ≤ 0.001 by norm_num))
            (h.nonneg (add_nonneg (h.sq x) (h.sq y))))
          linarith
        have := f64_mono this
        rwa [one] at this
      have := f64_mono (show (1 : ℚ) ≤ _ from one_le_mul_of_one_le_of_one_le h1 h1)
      rwa [one] at this
    have hnum : -0.5 ≤ f64 (sq f64 (L.sin (f64 (sq f64 x - sq f64 y))) - 0.5) := by
      have := f64_mono (show (-0.5 : ℚ) ≤ sq f64 (L.sin (f64 (sq f64 x - sq f64 y))) - 0.5 by
        have := h.sq (L.sin (f64 (sq f64 x - sq f64 y)))
        linarith)
      rwa [show f64 (-0.5) = -0.5 by decide +kernel] at this
    generalize sq f64 (f64 (1 + f64 (f64 0.001 * f64 (sq f64 x + sq f64 y)))) = D at hden
    generalize f64 (sq f64 (L.sin (f64 (sq f64 x - sq f64 y))) - 0.5) = N at hnum
    have hq : -0.5 ≤ N / D := by
      rw [le_div_iff₀ (by linarith)]
      nlinarith
    have := f64_mono hq
    rw [show f64 (-0.5) = -0.5 by decide +kernel] at this
    linarith
  · unfold easom
    have hexp : L.exp (f64 (-1 * f64 (sq f64 (f64 (x - L.pi)) + sq f64 (f64 (y - L.pi))))) ≤ 1 := by
      refine le_of_le_of_eq (hL.exp_mono ?_) hL.exp_zero
      have := f64_mono (show -1 * f64 (sq f64 (f64 (x - L.pi)) + sq f64 (f64 (y - L.pi))) ≤ 0 by
        have := h.nonneg (add_nonneg (h.sq (f64 (x - L.pi))) (h.sq (f64 (y - L.pi))))
        linarith)
      rwa [h.2] at this
    have hexp0 := hL.exp_nonneg (f64 (-1 * f64 (sq f64 (f64 (x - L.pi)) + sq f64 (f64 (y - L.pi)))))
    generalize L.exp (f64 (-1 * f64 (sq f64 (f64 (x - L.pi)) + sq f64 (f64 (y - L.pi))))) = E
      at hexp hexp0
    have unit : ∀ a : ℚ, |a| ≤ 1 → |f64 a| ≤ 1 := by
      intro a ha
      rw [abs_le] at ha ⊢
      have h1 := f64_mono ha.1
      have h2 := f64_mono ha.2
      rw [f64_neg, one] at h1
      rw [one] at h2
      exact ⟨h1, h2⟩
    have a1 : |f64 (-1 * L.cos x)| ≤ 1 := unit _ (by rw [abs_mul]; simpa using hL.cos_le x)
    have a2 : |f64 (f64 (-1 * L.cos x) * L.cos y)| ≤ 1 :=
      unit _ (by rw [abs_mul]; exact mul_le_one₀ a1 (abs_nonneg _) (hL.cos_le y))
    have a3 : |f64 (f64 (f64 (-1 * L.cos x) * L.cos y) * E)| ≤ 1 :=
      unit _ (by rw [abs_mul, abs_of_nonneg hexp0]; exact mul_le_one₀ a2 hexp0 hexp)
    exact (abs_le.1 a3).1
  · unfold rastrigin
    refine h.nonneg ?_
    have hv : ∀ j, -((10 : ℕ) : ℚ) ≤ f64 (sq f64 (v j) - f64 (10 * L.cos (f64 (f64 (2 * L.pi) * v j)))) := by
      intro j
      have ten : f64 10 = 10 := by decide +kernel
      have hc : f64 (10 * L.cos (f64 (f64 (2 * L.pi) * v j))) ≤ 10 := by
        have := f64_mono (show 10 * L.cos (f64 (f64 (2 * L.pi) * v j)) ≤ 10 by
          have := (abs_le.1 (hL.cos_le (f64 (f64 (2 * L.pi) * v j)))).2
          linarith)
        rwa [ten] at this
      have := f64_mono (show (-10 : ℚ) ≤ sq f64 (v j) - f64 (10 * L.cos (f64 (f64 (2 * L.pi) * v j))) by
        have := h.sq (v j)
        linarith)
      rw [f64_neg, ten] at this
      exact_mod_cast this
    have hb := sum_bounds hv t (by rw [ht.length]; exact hd)
    rw [ht.length] at hb
    have e : f64 (10 * (d : ℚ)) = ((10 * d : ℕ) : ℚ) := by
      rw [← f64_natCast hd]
      push_cast
      rfl
    rw [e]
    linarith

/-- In float64 `ackley` never returns less than 2^-51 = 4.4e-16: the documented minimum 0 is never
reached, in any number of dimensions. -/
theorem C113_ackley_positive (L : Libm ℚ) (hL : L.Sane) (t t' : SumTree d) (ht' : t'.Full)
    (hd0 : d ≠ 0) (hd : d ≤ 2 ^ 53) (x : Vec d ℚ) : 1 / 2 ^ 51 ≤ ackley f64 L t t' x := by
  have h := f64_rounding
  have hcos := sum_upper (c := 1) (v := fun j => L.cos (f64 (f64 (2 * L.pi) * x j)))
    (fun j => by simpa using (abs_le.1 (hL.cos_le _)).2) t' (by rw [ht'.length]; omega)
  rw [ht'.length, one_mul] at hcos
  have hb := hL.exp_mono (inv_mul_le hd0 hd hcos)
  rw [hL.exp_one] at hb
  unfold ackley
  have ha : L.exp (f64 (f64 (-0.2) *
      L.sqrt (f64 (f64 (1 / d) * t.sum f64 fun j => sq f64 (x j))))) ≤ 1 := by
    refine le_of_le_of_eq (hL.exp_mono ?_) hL.exp_zero
    have := f64_mono (mul_nonpos_of_nonpos_of_nonneg (show f64 (-0.2) ≤ 0 by decide +kernel)
      (hL.sqrt_nonneg (f64 (f64 (1 / d) * t.sum f64 fun j => sq f64 (x j)))))
    rwa [h.2] at this
  simp only
  rw [hL.exp_one]
  generalize L.exp (f64 (f64 (-0.2) *
      L.sqrt (f64 (f64 (1 / d) * t.sum f64 fun j => sq f64 (x j))))) = a at ha
  generalize L.exp (f64 (f64 (1 / d) * t'.sum f64 fun j => L.cos (f64 (f64 (2 * L.pi) * x j)))) = b
    at hb
  have h1 : -20 ≤ f64 (-20 * a) := by
    have := f64_mono (show (-20 : ℚ) ≤ -20 * a by linarith)
    rwa [show f64 (-20) = -20 by decide +kernel] at this
  have h2 := f64_mono (show -20 - e64 ≤ f64 (-20 * a) - b by linarith)
  have h3 := f64_mono (add_le_add_left h2 20)
  have h4 := f64_mono (add_le_add_left h3 e64)
  refine le_trans (le_of_eq ?_) h4
  decide +kernel

/-- At the documented minimiser `ackley` returns exactly 2^-51, if `1 / d * d` is 1 in float64. -/
theorem C113_ackley_at_zero (L : Libm ℚ) (hL : L.Sane) (t t' : SumTree d) (ht' : t'.Full)
    (hd : d ≤ 2 ^ 53) (h1 : f64 (f64 (1 / d) * d) = 1) :
    ackley f64 L t t' (fun _ => 0) = 1 / 2 ^ 51 := by
  have e0 : sq f64 0 = 0 := by decide +kernel
  have z : f64 0 = 0 := by decide +kernel
  have s0 : t.sum f64 (fun _ => (0 : ℚ)) = 0 := by
    have : ∀ t : SumTree d, t.sum f64 (fun _ => (0 : ℚ)) = 0 := by
      intro t
      induction t with
      | zero => rfl
      | leaf j => rfl
      | node a b iha ihb => rw [SumTree.sum, iha, ihb, add_zero, z]
    exact this t
  have s1 := sum_const (d := d) (c := 1) t' (by rw [ht'.length]; simpa using by exact_mod_cast hd)
  rw [ht'.length] at s1
  push_cast at s1
  unfold ackley
  simp only [e0, s0, mul_zero, z, hL.sqrt_zero, hL.exp_zero, hL.cos_zero, s1, one_mul, h1, hL.exp_one]
  decide +kernel

/-- In float64 the documented minimum is returned exactly at the documented minimiser. -/
theorem C113_attained (L : Libm ℚ) (hL : L.Sane) (t : SumTree d) (ht : t.Full)
    (hd : 10 * d ≤ 2 ^ 53) (u : SumTree (d - 1)) :
    sphere f64 t (fun _ => 0) = 0 ∧ rosenbrock f64 u (fun _ : Fin d => 1) = 0 ∧
    rastrigin f64 L t (fun _ => 0) = 0 ∧ beale f64 L 3 (1 / 2) = 0 ∧ booth f64 1 3 = 0 ∧
    bukin6 f64 L (-10) 1 = 0 ∧ goldstein f64 0 (-1) = 3 ∧ himmelblau f64 3 2 = 0 ∧
    matyas f64 0 0 = 0 ∧ schaffer2 f64 L 0 0 = 0 ∧ threehump f64 L 0 0 = 0 := by
  have z : f64 0 = 0 := by decide +kernel
  have e0 : sq f64 0 = 0 := by decide +kernel
  have s0 : ∀ {d} (t : SumTree d), t.sum f64 (fun _ => (0 : ℚ)) = 0 := by
    intro d t
    induction t with
    | zero => rfl
    | leaf j => rfl
    | node a b iha ihb => rw [SumTree.sum, iha, ihb, add_zero, z]
  refine ⟨?_, ?_, ?_, ?_, by decide +kernel, ?_, by decide +kernel, by decide +kernel,
    by decide +kernel, ?_, ?_⟩
  · unfold sphere; simp only [e0]; exact s0 t
  · unfold rosenbrock
    simp only [show f64 (f64 (100 * sq f64 (f64 (1 - sq f64 1))) + sq f64 (f64 (1 - 1))) = 0 by
      decide +kernel]
    exact s0 u
  · have s1 := sum_const (d := d) (c := -10) t (by
      rw [ht.length]
      have : ((10 * d : ℕ) : ℤ) ≤ 2 ^ 53 := by exact_mod_cast hd
      simpa using this)
    rw [ht.length] at s1
    unfold rastrigin
    simp only [mul_zero, z, hL.cos_zero, e0]
    rw [show f64 (0 - f64 (10 * 1)) = ((-10 : ℤ) : ℚ) by decide +kernel, s1]
    have e : f64 (10 * (d : ℚ)) = ((10 * d : ℕ) : ℚ) := by
      rw [← f64_natCast hd]
      push_cast
      rfl
    rw [e, show ((10 * d : ℕ) : ℚ) + ((-10 * (d : ℤ) : ℤ) : ℚ) = 0 by push_cast; ring, z]
  · unfold beale
    rw [hL.pow_half]
    decide +kernel
  · unfold bukin6
    rw [show |f64 (1 - f64 (f64 0.01 * sq f64 (-10)))| = 0 by decide +kernel, hL.sqrt_zero]
    decide +kernel
  · unfold schaffer2
    rw [show f64 (sq f64 0 - sq f64 0) = 0 by decide +kernel, hL.sin_zero]
    decide +kernel
  · unfold threehump
    rw [hL.pow_zero 3, hL.pow_zero 5]
    decide +kernel

/-- `levi` does not return 0 at its minimiser but the square of what `np.sin(np.pi)` returns,
1.2e-16. -/
theorem C113_levi_at_one (L : Libm ℚ) (hpi : f64 L.pi = L.pi) :
    levi f64 L 1 1 = sq f64 (L.sin L.pi) := by
  have w : f64 (1 + f64 (0 / 4)) = 1 := by decide +kernel
  have z : f64 0 = 0 := by decide +kernel
  have o : f64 (1 - 1) = 0 := by decide +kernel
  have s : sq f64 0 = 0 := by decide +kernel
  unfold levi
  simp only [w, o, s, mul_one, zero_mul, z, hpi, add_zero]
  simp only [sq, f64_idem]

/-- `goldstein` does return less than its documented minimum 3 at a point of its domain. -/
theorem C113_goldstein_below :
    ∃ x y, IsDouble x ∧ IsDouble y ∧ (-2 ≤ x ∧ x ≤ 2) ∧ (-2 ≤ y ∧ y ≤ 2) ∧ goldstein f64 x y < 3 := by
  refine ⟨0, -1 - 1 / 2 ^ 52, ⟨0, 0, by norm_num, by norm_num, by norm_num⟩,
    ⟨-(2 ^ 52 + 1), -52, by norm_num, by norm_num, by norm_num⟩, by norm_num, by norm_num, ?_⟩
  decide +kernel

/-- `sphere` returns 0 exactly where every square underflows, in particular not only at the
origin. -/
theorem C113_sphere_zero (t : SumTree d) (ht : t.Full) (x : Vec d ℚ) :
    sphere f64 t x = 0 ↔ ∀ j, x j * x j ≤ 2 ^ (-1075 : ℤ) := by
  unfold sphere
  rw [(sum_zero_iff (fun j => ⟨f64_rounding.sq _, f64_idem _⟩) t).2]
  constructor
  · intro h j
    exact (sq_eq_zero_iff _).1 (h j (ht.mem_iff.2 (List.mem_finRange j)))
  · intro h j _
    exact (sq_eq_zero_iff _).2 (h j)

/-- `matyas` is never negative in float64 if the coordinates are 0 or at least 2^-500 in absolute
value. -/
theorem C113_matyas (x y : ℚ) (hx : x = 0 ∨ 2 ^ (-500 : ℤ) ≤ |x|)
    (hy : y = 0 ∨ 2 ^ (-500 : ℤ) ≤ |y|) : 0 ≤ matyas f64 x y := by
  have h := f64_rounding
  unfold matyas
  apply h.nonneg
  rw [sub_nonneg]
  apply f64_mono
  have hp500 := two_zpow_pos (-500)
  have small : (2 : ℚ) ^ (-1021 : ℤ) ≤ 2 ^ (-500 : ℤ) * 2 ^ (-500 : ℤ) := by decide +kernel
  have small1 : (2 : ℚ) ^ (-1021 : ℤ) ≤ 1 / 8 * 2 ^ (-500 : ℤ) := by decide +kernel
  have g : (259 / 1000 : ℚ) ≤ f64 0.26 := by decide +kernel
  have k : f64 0.48 ≤ 481 / 1000 := by decide +kernel
  have k0 : 1 / 8 ≤ f64 0.48 := by decide +kernel
  have hL0 : 0 ≤ f64 0.26 * f64 (sq f64 x + sq f64 y) :=
    mul_nonneg (by linarith) (h.nonneg (add_nonneg (h.sq x) (h.sq y)))
  -- the positive case
  have main : ∀ p q : ℚ, 2 ^ (-500 : ℤ) ≤ p → 2 ^ (-500 : ℤ) ≤ q →
      f64 (f64 0.48 * p) * q ≤ f64 0.26 * f64 (sq f64 p + sq f64 q) := by
    intro p q hp hq
    have hp0 : 0 < p := by linarith
    have hq0 : 0 < q := by linarith
    have hpp : (2 : ℚ) ^ (-500 : ℤ) * 2 ^ (-500 : ℤ) ≤ p * p :=
      mul_le_mul hp hp hp500.le hp0.le
    have hqq : (2 : ℚ) ^ (-500 : ℤ) * 2 ^ (-500 : ℤ) ≤ q * q :=
      mul_le_mul hq hq hp500.le hq0.le
    have r1 := (abs_le.1 (f64_rel (y := p * p) (le_trans small hpp))).1
    have r2 := (abs_le.1 (f64_rel (y := q * q) (le_trans small hqq))).1
    have r3 := (abs_le.1 (f64_rel (y := f64 0.48 * p)
      (le_trans small1 (mul_le_mul k0 hp hp500.le (by linarith))))).2
    have e1 : 99 / 100 * (p * p) ≤ sq f64 p := by
      unfold sq
      have : p * p / 2 ^ 53 ≤ 1 / 100 * (p * p) := by
        rw [div_le_iff₀ (by norm_num)]
        nlinarith
      linarith
    have e2 : 99 / 100 * (q * q) ≤ sq f64 q := by
      unfold sq
      have : q * q / 2 ^ 53 ≤ 1 / 100 * (q * q) := by
        rw [div_le_iff₀ (by norm_num)]
        nlinarith
      linarith
    have small2 : (2 : ℚ) ^ (-1021 : ℤ) ≤ 99 / 100 * (2 ^ (-500 : ℤ) * 2 ^ (-500 : ℤ)) := by
      decide +kernel
    have r4 := (abs_le.1 (f64_rel (y := sq f64 p + sq f64 q)
      (le_trans small2 (le_trans (mul_le_mul_of_nonneg_left hpp (by norm_num))
        (le_trans e1 (le_add_of_nonneg_right (h.sq q))))))).1
    have e3 : 99 / 100 * (sq f64 p + sq f64 q) ≤ f64 (sq f64 p + sq f64 q) := by
      have hs : 0 ≤ sq f64 p + sq f64 q := add_nonneg (h.sq p) (h.sq q)
      have : (sq f64 p + sq f64 q) / 2 ^ 53 ≤ 1 / 100 * (sq f64 p + sq f64 q) := by
        rw [div_le_iff₀ (by norm_num)]
        nlinarith
      linarith
    have e4 : f64 (f64 0.48 * p) ≤ 49 / 100 * p := by
      have : f64 0.48 * p / 2 ^ 53 ≤ 1 / 100 * (f64 0.48 * p) := by
        rw [div_le_iff₀ (by norm_num)]
        nlinarith
      nlinarith
    have e5 : f64 (f64 0.48 * p) * q ≤ 49 / 100 * (p * q) := by nlinarith
    have e6 : 253 / 1000 * (p * p + q * q) ≤ f64 0.26 * f64 (sq f64 p + sq f64 q) := by
      have e7 : 98 / 100 * (p * p + q * q) ≤ f64 (sq f64 p + sq f64 q) := by nlinarith
      have : 259 / 1000 * (98 / 100 * (p * p + q * q)) ≤ f64 0.26 * f64 (sq f64 p + sq f64 q) :=
        mul_le_mul g e7 (by nlinarith) (by linarith)
      nlinarith
    nlinarith [sq_nonneg (p - q)]
  have negsq : ∀ a, sq f64 (-a) = sq f64 a := by
    intro a
    unfold sq
    rw [neg_mul_neg]
  rcases hx with rfl | hx
  · rw [mul_zero, h.2, zero_mul]; exact hL0
  rcases hy with rfl | hy
  · rw [mul_zero]; exact hL0
  rcases le_total 0 x with sx | sx <;> rcases le_total 0 y with sy | sy
  · rw [abs_of_nonneg sx] at hx
    rw [abs_of_nonneg sy] at hy
    exact main x y hx hy
  · refine le_trans (mul_nonpos_of_nonneg_of_nonpos (h.nonneg (mul_nonneg (by linarith) sx)) sy) hL0
  · have : f64 (f64 0.48 * x) ≤ 0 := by
      have := f64_mono (mul_nonpos_of_nonneg_of_nonpos (show 0 ≤ f64 0.48 by linarith) sx)
      rwa [h.2] at this
    exact le_trans (mul_nonpos_of_nonpos_of_nonneg this sy) hL0
  · rw [abs_of_nonpos sx] at hx
    rw [abs_of_nonpos sy] at hy
    have := main (-x) (-y) hx hy
    rw [negsq, negsq, mul_neg (f64 0.48) x, f64_neg, neg_mul_neg] at this
    exact this

/-! ## Examples -/

/-- A C library with the assumed properties (for the examples only: it is not accurate). -/
def toyLib : Libm ℚ where
  pi := f64 (3141592653589793 / 10 ^ 15)
  sin t := if t = 0 then 0 else 1 / 2 ^ 53
  cos t := if t = 0 then 1 else -1
  exp t := if t < 0 then 0 else if t < 1 then 1 else e64
  sqrt t := if t ≤ 0 then 0 else 1
  pow x k := x ^ k

theorem toyLib_sane : toyLib.Sane where
  sin_le t := by simp only [toyLib]; split_ifs <;> norm_num
  cos_le t := by simp only [toyLib]; split_ifs <;> norm_num
  sin_zero := by simp [toyLib]
  cos_zero := by simp [toyLib]
  exp_mono := by
    intro a b hab
    simp only [toyLib, e64]
    split_ifs <;> first | (exfalso; linarith) | norm_num
  exp_nonneg t := by simp only [toyLib, e64]; split_ifs <;> norm_num
  exp_zero := by simp [toyLib]
  exp_one := by simp [toyLib]
  sqrt_nonneg t := by simp only [toyLib]; split_ifs <;> norm_num
  sqrt_zero := by simp [toyLib]
  pow_zero k := by simp [toyLib]
  pow_half := by norm_num [toyLib]

/-- An order of adding three numbers. -/
def three : SumTree 3 := .node (.leaf 2) (.node (.leaf 0) (.leaf 1))

theorem three_full : three.Full := by
  show [2, 0, 1].Perm (List.finRange 3)
  decide

/-- The condition of `C113_ackley_at_zero` holds in three dimensions (and not in 49). -/
example : ackley f64 toyLib three three (fun _ => 0) = 1 / 2 ^ 51 :=
  C113_ackley_at_zero _ toyLib_sane _ _ three_full (by norm_num) (by decide +kernel)

example : f64 (f64 (1 / 49) * 49) ≠ 1 := by decide +kernel

/-- A point that is not the origin and where `sphere` returns 0. -/
example : sphere f64 three (fun _ => 1 / 2 ^ 538) = 0 ∧ (1 / 2 ^ 538 : ℚ) ≠ 0 :=
  ⟨(C113_sphere_zero _ three_full _).2 fun _ => by decide +kernel, by decide +kernel⟩

/-- Roundings of C113_never_negative: float64, and rounding down to integers. -/
example : Rounding f64 ∧ Rounding fun x => ((⌊x⌋ : ℤ) : ℚ) :=
  ⟨f64_rounding, fun _ _ h => Int.cast_le.2 (Int.floor_mono h), by simp⟩

/-- The value below the minimum. -/
example : goldstein f64 0 (-1 - 1 / 2 ^ 52) = 3 - 112 / 2 ^ 51 := by decide +kernel

example : 0 < matyas f64 1 (1 / 3) ∧ 0 < levi f64 toyLib 1 1 := by constructor <;> decide +kernel

end PySwarms.Fl
