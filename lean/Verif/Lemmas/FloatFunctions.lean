import Verif.Props.FloatFunctionsSpec
import Verif.Lemmas.Float
import Mathlib.Algebra.BigOperators.Fin

/-! Lemmas for C113 -/

set_option linter.unusedSectionVars false

namespace PySwarms.Fl

variable {d : Nat}

theorem Rounding.nonneg {fl : ℚ → ℚ} (h : Rounding fl) {a : ℚ} (ha : 0 ≤ a) : 0 ≤ fl a := by
  have := h.1 ha
  rwa [h.2] at this

theorem Rounding.sq {fl : ℚ → ℚ} (h : Rounding fl) (a : ℚ) : 0 ≤ Fl.sq fl a :=
  h.nonneg (mul_self_nonneg a)

theorem Rounding.sum {fl : ℚ → ℚ} (h : Rounding fl) {v : Fin d → ℚ} (hv : ∀ j, 0 ≤ v j) :
    ∀ t : SumTree d, 0 ≤ t.sum fl v
  | .zero => le_refl _
  | .leaf j => hv j
  | .node a b => h.nonneg (add_nonneg (Rounding.sum h hv a) (Rounding.sum h hv b))

theorem f64_rounding : Rounding f64 := ⟨f64_mono, by decide +kernel⟩

theorem SumTree.sum_id {K : Type} [Field K] [LinearOrder K] (v : Fin d → K) :
    ∀ t : SumTree d, t.sum id v = (t.leaves.map v).sum
  | .zero => by simp [SumTree.sum, SumTree.leaves]
  | .leaf j => by simp [SumTree.sum, SumTree.leaves]
  | .node a b => by
      simp only [SumTree.sum, SumTree.leaves, List.map_append, List.sum_append, id, sum_id v a, sum_id v b]

theorem SumTree.Full.sum_id {K : Type} [Field K] [LinearOrder K] (v : Fin d → K) {t : SumTree d}
    (h : t.Full) : t.sum id v = ∑ j, v j := by
  rw [SumTree.sum_id, (h.map v).sum_eq, Fin.sum_univ_def]

theorem f64_int {z : ℤ} (h : |z| ≤ 2 ^ 53) : f64 z = z :=
  f64_of_isDouble ⟨z, 0, h, by norm_num, by simp⟩

theorem f64_natCast {m : ℕ} (h : m ≤ 2 ^ 53) : f64 m = m := by
  have := f64_int (z := m) (by rw [abs_of_nonneg (by positivity)]; exact_mod_cast h)
  exact_mod_cast this

/-- Numbers between `-c` and `c`, for an integer `c`: their sum in any order. -/
theorem sum_bounds {c : ℕ} {v : Fin d → ℚ} (hv : ∀ j, -(c : ℚ) ≤ v j) :
    ∀ t : SumTree d, c * t.leaves.length ≤ 2 ^ 53 →
      -((c * t.leaves.length : ℕ) : ℚ) ≤ t.sum f64 v
  | .zero, _ => by simp [SumTree.sum, SumTree.leaves]
  | .leaf j, _ => by simpa [SumTree.sum, SumTree.leaves] using hv j
  | .node a b, h => by
      simp only [SumTree.leaves, List.length_append] at h ⊢
      have ha := sum_bounds hv a (by nlinarith)
      have hb := sum_bounds hv b (by nlinarith)
      have := f64_mono (add_le_add ha hb)
      rw [SumTree.sum]
      refine le_trans (le_of_eq ?_) this
      have e := f64_natCast h
      rw [← neg_add, f64_neg]
      congr 1
      rw [← e]
      congr 1
      push_cast
      ring

theorem sum_upper {c : ℕ} {v : Fin d → ℚ} (hv : ∀ j, v j ≤ (c : ℚ)) :
    ∀ t : SumTree d, c * t.leaves.length ≤ 2 ^ 53 →
      t.sum f64 v ≤ ((c * t.leaves.length : ℕ) : ℚ)
  | .zero, _ => by simp [SumTree.sum, SumTree.leaves]
  | .leaf j, _ => by simpa [SumTree.sum, SumTree.leaves] using hv j
  | .node a b, h => by
      simp only [SumTree.leaves, List.length_append] at h ⊢
      have ha := sum_upper hv a (by nlinarith)
      have hb := sum_upper hv b (by nlinarith)
      have := f64_mono (add_le_add ha hb)
      rw [SumTree.sum]
      refine le_trans this (le_of_eq ?_)
      have e := f64_natCast h
      rw [← e]
      congr 1
      push_cast
      ring

theorem sum_const {c : ℤ} : ∀ t : SumTree d, |c| * t.leaves.length ≤ 2 ^ 53 →
      t.sum f64 (fun _ => (c : ℚ)) = ((c * t.leaves.length : ℤ) : ℚ)
  | .zero, _ => by simp [SumTree.sum, SumTree.leaves]
  | .leaf j, _ => by simp [SumTree.sum, SumTree.leaves]
  | .node a b, h => by
      simp only [SumTree.leaves, List.length_append] at h ⊢
      push_cast at h
      have ha := sum_const a (by nlinarith [abs_nonneg c])
      have hb := sum_const b (by nlinarith [abs_nonneg c])
      rw [SumTree.sum, ha, hb]
      have e := f64_int (z := c * ((a.leaves.length + b.leaves.length : ℕ) : ℤ))
        (by rw [abs_mul, abs_of_nonneg (a := ((a.leaves.length + b.leaves.length : ℕ) : ℤ)) (by positivity)]
            push_cast; exact h)
      rw [← e]
      congr 1
      push_cast
      ring

theorem SumTree.Full.length {t : SumTree d} (h : t.Full) : t.leaves.length = d := by
  simpa using h.length_eq

/-- Relative error of rounding in the normal range. -/
theorem f64_rel {y : ℚ} (hy : 2 ^ (-1021 : ℤ) ≤ y) : |f64 y - y| ≤ y / 2 ^ 53 := by
  have hy0 : 0 < y := lt_of_lt_of_le (two_zpow_pos _) hy
  have hpos := two_zpow_pos (lastPlace y)
  have hnear := roundEven_near (y / 2 ^ lastPlace y)
  have hb : |f64 y - y| ≤ 2 ^ lastPlace y / 2 := by
    have e : f64 y - y = (roundEven (y / 2 ^ lastPlace y) - y / 2 ^ lastPlace y) *
        2 ^ lastPlace y := by
      unfold f64
      rw [if_neg (by linarith)]
      unfold f64pos
      rw [sub_mul, div_mul_cancel₀ _ hpos.ne']
    rw [e, abs_mul, abs_of_pos hpos]
    have : |(roundEven (y / 2 ^ lastPlace y) : ℚ) - y / 2 ^ lastPlace y| ≤ 1 / 2 := by
      rw [abs_le]; constructor <;> linarith [hnear.1, hnear.2]
    have := mul_le_mul_of_nonneg_right this hpos.le
    linarith
  refine le_trans hb ?_
  have h : -1074 < lastPlace y := by
    have h1 := lastPlace_lt y
    have h2 := lt_of_le_of_lt hy h1
    have := (zpow_lt_zpow_iff_right₀ (show (1 : ℚ) < 2 by norm_num)).1 h2
    omega
  have h1 := lastPlace_le hy0 h
  have h2 : (2 : ℚ) ^ (lastPlace y + 52) = 2 ^ lastPlace y * 2 ^ 52 := by
    rw [zpow_add₀ (by norm_num)]; rfl
  rw [h2] at h1
  rw [div_le_div_iff₀ (by norm_num) (by norm_num)]
  have : (2 : ℚ) ^ 53 = 2 ^ 52 * 2 := by norm_num
  rw [this]
  nlinarith

theorem inv_mul_le (hd0 : d ≠ 0) (hd : d ≤ 2 ^ 53) {s : ℚ} (hs : s ≤ d) :
    f64 (f64 (1 / d) * s) ≤ 1 := by
  have hdq : (0 : ℚ) < d := by exact_mod_cast Nat.pos_of_ne_zero hd0
  have hdq' : (d : ℚ) ≤ 2 ^ 53 := by exact_mod_cast hd
  have hlow : (2 : ℚ) ^ (-1021 : ℤ) ≤ 1 / d := by
    rw [le_div_iff₀ hdq]
    calc (2 : ℚ) ^ (-1021 : ℤ) * d ≤ 2 ^ (-1021 : ℤ) * 2 ^ 53 :=
          mul_le_mul_of_nonneg_left hdq' (two_zpow_pos _).le
      _ ≤ 1 := by decide +kernel
  have hr := (abs_le.1 (f64_rel hlow)).2
  have hn := f64_rounding.nonneg (show (0 : ℚ) ≤ 1 / d by positivity)
  have hle : f64 (1 / d) * s ≤ 1 + 1 / 2 ^ 53 := by
    calc f64 (1 / d) * s ≤ f64 (1 / d) * d := mul_le_mul_of_nonneg_left hs hn
      _ ≤ (1 / d + 1 / d / 2 ^ 53) * d := mul_le_mul_of_nonneg_right (by linarith) hdq.le
      _ = 1 + 1 / 2 ^ 53 := by field_simp
  have := f64_mono hle
  rwa [show f64 (1 + 1 / 2 ^ 53) = 1 by decide +kernel] at this

/-- A square is rounded to 0 exactly if it is at most 2^-1075. -/
theorem sq_eq_zero_iff (a : ℚ) : sq f64 a = 0 ↔ a * a ≤ 2 ^ (-1075 : ℤ) := by
  have hn := mul_self_nonneg a
  unfold sq
  generalize a * a = y at hn
  constructor
  · intro h
    by_contra hc
    push Not at hc
    have hy0 : 0 < y := lt_trans (two_zpow_pos _) hc
    have hpos := two_zpow_pos (lastPlace y)
    unfold f64 at h
    rw [if_neg (by linarith)] at h
    unfold f64pos at h
    have hr : roundEven (y / 2 ^ lastPlace y) = 0 := by
      rcases mul_eq_zero.1 h with h | h
      · exact_mod_cast h
      · exact absurd h hpos.ne'
    have hnear := (roundEven_near (y / 2 ^ lastPlace y)).2
    rw [hr] at hnear
    have hle : y ≤ 1 / 2 * 2 ^ lastPlace y := by
      rw [← div_le_iff₀ hpos]
      push_cast at hnear
      linarith
    by_cases hlp : -1074 < lastPlace y
    · have h1 := lastPlace_le hy0 hlp
      have h2 : (2 : ℚ) ^ (lastPlace y + 52) = 2 ^ lastPlace y * 2 ^ 52 := by
        rw [zpow_add₀ (by norm_num)]; rfl
      rw [h2] at h1
      nlinarith
    · have : lastPlace y = -1074 := le_antisymm (not_lt.1 hlp) (le_max_right _ _)
      rw [this] at hle
      have h2 : (1 : ℚ) / 2 * 2 ^ (-1074 : ℤ) = 2 ^ (-1075 : ℤ) := by decide +kernel
      rw [h2] at hle
      linarith
  · intro h
    have h1 := f64_mono h
    rw [show f64 (2 ^ (-1075 : ℤ)) = 0 by decide +kernel] at h1
    exact le_antisymm h1 (f64_rounding.nonneg hn)

theorem sum_zero_iff {v : Fin d → ℚ} (hv : ∀ j, 0 ≤ v j ∧ f64 (v j) = v j) :
    ∀ t : SumTree d, (f64 (t.sum f64 v) = t.sum f64 v) ∧
      (t.sum f64 v = 0 ↔ ∀ j ∈ t.leaves, v j = 0)
  | .zero => ⟨f64_rounding.2, by simp [SumTree.sum, SumTree.leaves]⟩
  | .leaf j => ⟨(hv j).2, by simp [SumTree.sum, SumTree.leaves]⟩
  | .node a b => by
      obtain ⟨ia, ha⟩ := sum_zero_iff hv a
      obtain ⟨ib, hb⟩ := sum_zero_iff hv b
      have na := f64_rounding.sum (fun j => (hv j).1) a
      have nb := f64_rounding.sum (fun j => (hv j).1) b
      refine ⟨f64_idem _, ?_⟩
      rw [SumTree.sum]
      simp only [SumTree.leaves, List.mem_append]
      have : f64 (a.sum f64 v + b.sum f64 v) = 0 ↔ a.sum f64 v = 0 ∧ b.sum f64 v = 0 := by
        constructor
        · intro h
          have h1 := f64_mono (show a.sum f64 v ≤ a.sum f64 v + b.sum f64 v by linarith)
          have h2 := f64_mono (show b.sum f64 v ≤ a.sum f64 v + b.sum f64 v by linarith)
          rw [ia, h] at h1
          rw [ib, h] at h2
          exact ⟨le_antisymm h1 na, le_antisymm h2 nb⟩
        · rintro ⟨h1, h2⟩
          rw [h1, h2, add_zero]
          exact f64_rounding.2
      rw [this, ha, hb]
      constructor
      · rintro ⟨h1, h2⟩ j (hj | hj)
        · exact h1 j hj
        · exact h2 j hj
      · intro h
        exact ⟨fun j hj => h j (.inl hj), fun j hj => h j (.inr hj)⟩

end PySwarms.Fl
