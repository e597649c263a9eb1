import Mathlib.Algebra.Order.Field.Basic
import Mathlib.Algebra.Order.AbsoluteValue.Basic
import Mathlib.Tactic.Linarith
import Mathlib.Tactic.Ring
import Mathlib.Tactic.FieldSimp
import Mathlib.Tactic.Positivity

/-!
# One coordinate of one particle, for every sequence of random numbers

`y' = y + v'`, `v' = w v - φ (y - e)` with `0 ≤ φ ≤ c` and `|e| ≤ E`.  If
`c (1 + w) < 2 (1 - w)²` the function `energy` grows at most up to a fixed level.
-/

set_option linter.unusedSectionVars false

namespace PySwarms

variable {K : Type} [Field K] [LinearOrder K] [IsStrictOrderedRing K]

/-- The quadratic Lyapunov function of the update. -/
def energy (w y v : K) : K := ((1 - w) * y + w * v) ^ 2 + w * v ^ 2

theorem energy_nonneg {w : K} (hw : 0 ≤ w) (y v : K) : 0 ≤ energy w y v := by
  unfold energy
  positivity

/-- The change of the energy in one step, completed to squares. -/
theorem energy_step {w : K} (hw : w < 1) (y v φ e : K) :
    energy w (y + (w * v - φ * (y - e))) (w * v - φ * (y - e)) - energy w y v =
      -(φ * (y - e) ^ 2 * (2 * (1 - w) - (1 + w) * φ / (1 - w)))
      - w * (1 + w) * (1 - w) * (v + φ * (y - e) / (1 - w)) ^ 2
      - 2 * φ * (1 - w) * e * (y - e) := by
  have h : (1 - w) ≠ 0 := (sub_pos.2 hw).ne'
  unfold energy
  field_simp
  ring

theorem abs_le_one_add_sq {a M : K} (h : a ^ 2 ≤ M) : |a| ≤ 1 + M := by
  rcases le_total 0 a with ha | ha
  · rw [abs_of_nonneg ha]; nlinarith [sq_nonneg (a - 1)]
  · rw [abs_of_nonpos ha]; nlinarith [sq_nonneg (a + 1)]

/-- Small energy means a small distance. -/
theorem abs_le_of_energy {w : K} (h0 : 0 ≤ w) (h1 : w < 1) {y v M : K} (h : energy w y v ≤ M) :
    |y| ≤ 2 * (1 + M) / (1 - w) := by
  have hs : 0 < 1 - w := sub_pos.2 h1
  unfold energy at h
  have hU : ((1 - w) * y + w * v) ^ 2 ≤ M := by nlinarith [mul_nonneg h0 (sq_nonneg v)]
  have hv : (w * v) ^ 2 ≤ M := by
    have : (w * v) ^ 2 ≤ w * v ^ 2 := by
      nlinarith [mul_nonneg (mul_nonneg h0 hs.le) (sq_nonneg v)]
    nlinarith [sq_nonneg ((1 - w) * y + w * v)]
  have a1 := abs_le.1 (abs_le_one_add_sq hU)
  have a2 := abs_le.1 (abs_le_one_add_sq hv)
  rw [abs_le]
  constructor
  · rw [neg_le, le_div_iff₀ hs]
    nlinarith [a1.1, a2.2]
  · rw [le_div_iff₀ hs]
    nlinarith [a1.2, a2.1]

/-- The energy of bounded states is bounded. -/
theorem energy_le {w : K} (h0 : 0 ≤ w) (h1 : w < 1) {y v A B : K} (hy : |y| ≤ A) (hv : |v| ≤ B) :
    energy w y v ≤ (A + B) ^ 2 + B ^ 2 := by
  have hA := (abs_nonneg y).trans hy
  have hB := (abs_nonneg v).trans hv
  have hU : |(1 - w) * y + w * v| ≤ A + B := by
    refine (abs_add_le _ _).trans ?_
    rw [abs_mul, abs_mul, abs_of_nonneg h0, abs_of_nonneg (sub_nonneg.2 h1.le)]
    nlinarith [abs_nonneg y, abs_nonneg v]
  have e1 : ((1 - w) * y + w * v) ^ 2 ≤ (A + B) ^ 2 := by
    rw [← sq_abs]
    exact pow_le_pow_left₀ (abs_nonneg _) hU 2
  have e2 : v ^ 2 ≤ B ^ 2 := by
    rw [← sq_abs]
    exact pow_le_pow_left₀ (abs_nonneg _) hv 2
  unfold energy
  nlinarith [sq_nonneg v]

/-- One step raises the energy at most to a fixed level. -/
theorem energy_bounded {w c E : K} (h0 : 0 ≤ w) (h1 : w < 1) (hc : 0 ≤ c) (hE : 0 ≤ E)
    (hstab : c * (1 + w) < 2 * (1 - w) ^ 2) :
    ∃ M, ∀ y v φ e, 0 ≤ φ → φ ≤ c → |e| ≤ E →
      energy w (y + (w * v - φ * (y - e))) (w * v - φ * (y - e)) ≤ max (energy w y v) M := by
  have hs : 0 < 1 - w := sub_pos.2 h1
  obtain ⟨s, hsdef⟩ : ∃ s, s = 1 - w := ⟨_, rfl⟩
  rw [← hsdef] at hs hstab
  obtain ⟨δ, hδ⟩ : ∃ δ, δ = 2 * s - (1 + w) * c / s := ⟨_, rfl⟩
  have hδ0 : 0 < δ := by
    rw [hδ, sub_pos, div_lt_iff₀ hs]
    nlinarith
  obtain ⟨Z, hZ⟩ : ∃ Z, Z = 2 * s * E / δ := ⟨_, rfl⟩
  have hZ0 : 0 ≤ Z := by rw [hZ]; positivity
  -- a bound on the velocity beyond which the energy falls
  obtain ⟨X, hX⟩ : ∃ X, X = 1 + 2 * c * s * E * Z / (w * (1 + w) * s) := ⟨_, rfl⟩
  obtain ⟨B, hB⟩ : ∃ B, B = X + c * Z / s := ⟨_, rfl⟩
  obtain ⟨M1, hM1⟩ : ∃ M1, M1 = (Z + E + (B + c * Z) + (B + c * Z)) ^ 2 + (B + c * Z) ^ 2 := ⟨_, rfl⟩
  refine ⟨M1, fun y v φ e hφ hφc he => ?_⟩
  obtain ⟨z, hz⟩ : ∃ z, z = y - e := ⟨_, rfl⟩
  have hstep := energy_step h1 y v φ e
  rw [← hz, ← hsdef] at hstep
  rw [← hz]
  have hd : δ ≤ 2 * s - (1 + w) * φ / s := by
    rw [hδ]
    have : (1 + w) * φ / s ≤ (1 + w) * c / s := by
      apply div_le_div_of_nonneg_right _ hs.le
      nlinarith
    linarith
  have hmain : energy w (y + (w * v - φ * z)) (w * v - φ * z) ≤ energy w y v -
      φ * (δ * z ^ 2 + 2 * s * e * z) - w * (1 + w) * s * (v + φ * z / s) ^ 2 := by
    have : φ * z ^ 2 * δ ≤ φ * z ^ 2 * (2 * s - (1 + w) * φ / s) :=
      mul_le_mul_of_nonneg_left hd (by positivity)
    nlinarith
  have hsq : 0 ≤ w * (1 + w) * s * (v + φ * z / s) ^ 2 := by positivity
  have hez : -(E * |z|) ≤ e * z := by
    have := neg_abs_le (e * z)
    rw [abs_mul] at this
    nlinarith [abs_nonneg z]
  by_cases hzZ : Z ≤ |z|
  · refine le_max_of_le_left ?_
    have h2 : 0 ≤ δ * z ^ 2 + 2 * s * e * z := by
      have hZd : 2 * s * E = Z * δ := by rw [hZ, div_mul_cancel₀ _ hδ0.ne']
      have h3 : 2 * s * -(E * |z|) ≤ 2 * s * (e * z) :=
        mul_le_mul_of_nonneg_left hez (by linarith)
      have h4 : 0 ≤ δ * |z| * (|z| - Z) :=
        mul_nonneg (mul_nonneg hδ0.le (abs_nonneg z)) (sub_nonneg.2 hzZ)
      have h5 : 2 * s * -(E * |z|) = -(Z * δ * |z|) := by rw [← hZd]; ring
      have h6 : δ * z ^ 2 = δ * |z| * |z| := by rw [← sq_abs]; ring
      rw [h6]
      linarith only [h3, h4, h5]
    linarith only [hmain, hsq, mul_nonneg hφ h2]
  · rw [not_le] at hzZ
    have hφz : |φ * z| ≤ c * Z := by
      rw [abs_mul, abs_of_nonneg hφ]
      exact mul_le_mul hφc hzZ.le (abs_nonneg _) hc
    have hy : |y| ≤ Z + E := by
      have : y = z + e := by rw [hz]; ring
      rw [this]
      exact (abs_add_le _ _).trans (add_le_add hzZ.le he)
    by_cases hw0 : w = 0
    · -- no inertia: the velocity is forgotten
      refine le_max_of_le_right ?_
      have hB0 : 0 ≤ B := by rw [hB, hX, hw0]; simp; positivity
      have hv' : |w * v - φ * z| ≤ B + c * Z := by
        rw [hw0, zero_mul, zero_sub, abs_neg]
        linarith
      have hy' : |y + (w * v - φ * z)| ≤ Z + E + (B + c * Z) :=
        (abs_add_le _ _).trans (add_le_add hy hv')
      rw [hM1]
      exact energy_le h0 h1 hy' hv'
    · have hw : 0 < w := lt_of_le_of_ne h0 (Ne.symm hw0)
      have hP : 0 < w * (1 + w) * s := by positivity
      have hX1 : 1 ≤ X := by
        rw [hX]
        have : 0 ≤ 2 * c * s * E * Z / (w * (1 + w) * s) := by positivity
        linarith
      by_cases hvB : B ≤ |v|
      · refine le_max_of_le_left ?_
        have hvz : X ≤ |v + φ * z / s| := by
          have h3 : |φ * z / s| ≤ c * Z / s := by
            rw [abs_div, abs_of_pos hs]
            exact div_le_div_of_nonneg_right hφz hs.le
          have h4 : |v| ≤ |v + φ * z / s| + |φ * z / s| := by
            have := abs_sub_abs_le_abs_sub v (-(φ * z / s))
            rw [abs_neg, sub_neg_eq_add] at this
            linarith only [this]
          linarith only [h3, h4, hvB, hB]
        have hX2 : X ≤ (v + φ * z / s) ^ 2 := by
          rw [← sq_abs, pow_two]
          have := mul_le_mul hvz (hX1.trans hvz) zero_le_one (abs_nonneg (v + φ * z / s))
          rwa [mul_one] at this
        have h5 : 2 * c * s * E * Z ≤ w * (1 + w) * s * (v + φ * z / s) ^ 2 := by
          have : 2 * c * s * E * Z ≤ w * (1 + w) * s * X := by
            rw [hX, mul_add, mul_div_cancel₀ _ hP.ne']
            linarith
          exact this.trans (mul_le_mul_of_nonneg_left hX2 hP.le)
        have h6 : -(φ * (δ * z ^ 2 + 2 * s * e * z)) ≤ 2 * c * s * E * Z := by
          have h7 : -(2 * s * (E * Z)) ≤ δ * z ^ 2 + 2 * s * e * z := by
            have h3 : 2 * s * -(E * |z|) ≤ 2 * s * (e * z) :=
              mul_le_mul_of_nonneg_left hez (by linarith)
            have h4 : 2 * s * (E * |z|) ≤ 2 * s * (E * Z) :=
              mul_le_mul_of_nonneg_left (mul_le_mul_of_nonneg_left hzZ.le hE) (by linarith)
            linarith only [h3, h4, mul_nonneg hδ0.le (sq_nonneg z)]
          have h8 : 0 ≤ 2 * s * (E * Z) := by positivity
          have h9 := mul_le_mul_of_nonneg_right hφc h8
          have h10 := mul_le_mul_of_nonneg_left h7 hφ
          linarith only [h9, h10]
        linarith only [hmain, h5, h6]
      · rw [not_le] at hvB
        refine le_max_of_le_right ?_
        have hv' : |w * v - φ * z| ≤ B + c * Z := by
          refine (abs_sub _ _).trans (add_le_add ?_ hφz)
          rw [abs_mul, abs_of_pos hw]
          have := mul_le_mul_of_nonneg_right h1.le (abs_nonneg v)
          rw [one_mul] at this
          exact this.trans hvB.le
        have hy' : |y + (w * v - φ * z)| ≤ Z + E + (B + c * Z) :=
          (abs_add_le _ _).trans (add_le_add hy hv')
        rw [hM1]
        exact energy_le h0 h1 hy' hv'

end PySwarms
