import Verif.Props.Functions
import Verif.Lemmas.Trig
import Mathlib.Analysis.Real.Pi.Bounds

/-! # C46: the eggholder function -/

namespace PySwarms.Bench

open Real

/-- The (negated) eggholder function in the coordinates `x` and `u = y + 47`. -/
noncomputable def egg (x u : ℝ) : ℝ := u * sin √|x / 2 + u| + x * sin √|x - u|

/-- The univariate estimate near the minimiser. -/
theorem egg_poly {s : ℝ} (h1 : -0.2455 ≤ s) (h2 : s ≤ 0.2455) :
    (512 - 7.7954 ^ 2 - 2 * 7.7954 * s) *
      (1 - (0.1097085 + 7.7954 / 26.59382 * s) ^ 2 / 2 + (0.1097085 + 7.7954 / 26.59382 * s) ^ 4 / 24) +
      512 * (1 - (-0.058581634 + s) ^ 2 / 2 + (-0.058581634 + s) ^ 4 / 24) ≤ 959.6407 := by
  have e : (512 - 7.7954 ^ 2 - 2 * 7.7954 * s) *
      (1 - (0.1097085 + 7.7954 / 26.59382 * s) ^ 2 / 2 + (0.1097085 + 7.7954 / 26.59382 * s) ^ 4 / 24) +
      512 * (1 - (-0.058581634 + s) ^ 2 / 2 + (-0.058581634 + s) ^ 4 / 24) =
      5757844010849962233540716004003720827183/6000000000000000000000000000000000000 +
      -2477878895917056826126753512373/1064640000000000000000000000000000 * s +
      s ^ 2 * (-1940144327721340334028390514897395769/7072312621924000000000000000000000 +
        -9706838133551629424774803959599/2352958409314114800000000000000 * s +
        671016277402800863066296046784291/31261003638890952103413610000000 * s ^ 2 +
        -89958466897504492558657/18756602183334571262048166 * s ^ 3) := by
    ring
  rw [e]
  have hs2 : s ^ 2 ≤ 0.0604 := by nlinarith
  have hs3 : -0.02 ≤ s ^ 3 := by
    have : 0 ≤ s ^ 2 := sq_nonneg s
    have e : s ^ 3 = s * s ^ 2 := by ring
    rw [e]
    nlinarith
  have hR : -1940144327721340334028390514897395769/7072312621924000000000000000000000 +
        -9706838133551629424774803959599/2352958409314114800000000000000 * s +
        671016277402800863066296046784291/31261003638890952103413610000000 * s ^ 2 +
        -89958466897504492558657/18756602183334571262048166 * s ^ 3 ≤ -270 := by
    norm_num at h1 h2 hs2 hs3 ⊢
    linarith
  have h := mul_le_mul_of_nonneg_left hR (sq_nonneg s)
  have hq : 0 ≤ (s + 0.0000044) ^ 2 := sq_nonneg _
  norm_num at h hq ⊢
  nlinarith

/-- `(8.5 π + θ)² (1 + cos θ)` for moderate angles. -/
theorem egg_square {a : ℝ} (ha1 : 25 ≤ a) (ha2 : a ≤ 8.5 * π + 0.7) :
    a ^ 2 * (1 + cos (a - 8.5 * π)) ≤ 1435 := by
  have hp1 := pi_gt_d4
  have hp2 := pi_lt_d4
  obtain ⟨θ, rfl⟩ : ∃ θ, a = 8.5 * π + θ := ⟨a - 8.5 * π, by ring⟩
  rw [add_sub_cancel_left]
  have hc := cos_le_four θ
  rcases le_total θ 0 with h | h
  · have h1 := cos_le_one θ
    have h2 : (8.5 * π + θ) ^ 2 ≤ 26.704 ^ 2 := by
      apply pow_le_pow_left₀ (by linarith)
      norm_num at hp2 ⊢; linarith
    have h3 : 0 ≤ 1 + cos θ := by linarith [neg_one_le_cos θ]
    have h4 := mul_le_mul h2 (by linarith : 1 + cos θ ≤ 2) h3 (by norm_num)
    norm_num at h4 ⊢
    linarith
  · have hθ : θ ≤ 0.7 := by linarith
    have h2 : (8.5 * π + θ) ^ 2 ≤ (26.704 + θ) ^ 2 := by
      apply pow_le_pow_left₀ (by linarith)
      norm_num at hp2 ⊢; linarith
    have h3 : 0 ≤ 1 + cos θ := by linarith [neg_one_le_cos θ]
    have h5 : 1 + cos θ ≤ 2 - 0.479 * θ ^ 2 := by
      have : θ ^ 4 / 24 ≤ 0.021 * θ ^ 2 := by
        have h6 : θ ^ 2 ≤ 0.49 := by nlinarith
        have h7 := mul_le_mul_of_nonneg_left h6 (sq_nonneg θ)
        nlinarith
      linarith
    have h4 := mul_le_mul h2 h5 h3 (by positivity)
    refine h4.trans ?_
    have e : (26.704 + θ) ^ 2 * (2 - 0.479 * θ ^ 2) =
        1426.207232 + 106.816 * θ + (2 - 0.479 * 713.103616) * θ ^ 2 - 0.479 * 53.408 * θ ^ 3
          - 0.479 * θ ^ 4 := by ring
    rw [e]
    have h6 : 0 ≤ θ ^ 3 := by positivity
    have h7 : 0 ≤ θ ^ 4 := by positivity
    nlinarith [sq_nonneg (θ - 0.157)]

/-- Sign and size of the sine, from the position of its argument. -/
theorem sin_nonneg_of_turn {a : ℝ} (k : ℕ) (h1 : k * (2 * π) ≤ a) (h2 : a ≤ k * (2 * π) + π) :
    0 ≤ sin a := by
  have : sin a = sin (a - k * (2 * π)) := by rw [sin_sub_nat_mul_two_pi]
  rw [this]
  exact sin_nonneg_of_nonneg_of_le_pi (by linarith) (by linarith)

theorem sqrt_bounds {z lo hi : ℝ} (hlo : 0 ≤ lo) (hhi : 0 ≤ hi) (h1 : lo ^ 2 ≤ z) (h2 : z ≤ hi ^ 2) :
    lo ≤ √z ∧ √z ≤ hi :=
  ⟨le_sqrt_of_sq_le h1, by rw [sqrt_le_left hhi]; exact h2⟩

set_option maxHeartbeats 2000000 in
/-- Both coordinates positive and large: the only place where the value can exceed `959.6`. -/
theorem egg_corner {x u : ℝ} (hx1 : 400.6 ≤ x) (hx2 : x ≤ 512) (hu1 : 447.6 ≤ u) (hu2 : u ≤ 559)
    (hS : 959.6 < egg x u) : egg x u ≤ 959.64072 := by
  have hp1 := pi_gt_d20
  have hp2 := pi_lt_d20
  unfold egg at hS ⊢
  rw [abs_of_nonneg (by linarith : 0 ≤ x / 2 + u)] at hS ⊢
  obtain ⟨a1, a2⟩ := sqrt_bounds (z := x / 2 + u) (lo := 25.4) (hi := 28.55) (by norm_num)
    (by norm_num) (by norm_num at *; linarith) (by norm_num at *; linarith)
  have ha := sq_sqrt (show 0 ≤ x / 2 + u by linarith)
  generalize √(x / 2 + u) = a at *
  have hb := sq_sqrt (abs_nonneg (x - u))
  have hb0 := sqrt_nonneg |x - u|
  generalize √|x - u| = b at *
  have hA : sin a = cos (a - 8.5 * π) := by
    rw [show a - 8.5 * π = a - π / 2 - (4 : ℕ) * (2 * π) by push_cast; ring,
      cos_sub_nat_mul_two_pi, cos_sub_pi_div_two]
  have hA1 := sin_le_one a
  have hB1 := sin_le_one b
  have hA2 : 0.8 ≤ sin a := by nlinarith
  have hB2 : 0.7824 ≤ sin b := by nlinarith
  have ha3 : a ≤ 8.5 * π + 0.7 := by
    by_contra hcon
    push Not at hcon
    have h1 : cos (a - 8.5 * π) ≤ cos 0.7 := by
      apply cos_le_cos_of_nonneg_of_le_pi (by norm_num) (by norm_num at *; linarith) (by linarith)
    have h2 := cos_le_four 0.7
    rw [hA] at hA2
    norm_num at *
    linarith
  have hsq := egg_square (by linarith) ha3
  rw [← hA] at hsq
  rcases le_or_gt x u with hxu | hxu
  · -- below the diagonal
    exfalso
    have e : a ^ 2 * (1 + sin a) = 1.5 * (x * (1 + sin a)) + (u - x) * (1 + sin a) := by
      rw [ha]; ring
    have h1 : x * sin b ≤ x := by nlinarith
    nlinarith
  · rw [abs_of_pos (by linarith : 0 < x - u)] at hb
    rcases le_or_gt (x - u) 5.7 with hD | hD
    · exfalso
      have e : a ^ 2 * (1 + sin a) = 1.5 * (x * (1 + sin a)) - (x - u) * (1 + sin a) := by
        rw [ha]; ring
      have h1 : x * sin b ≤ x := by nlinarith
      nlinarith
    · have hb1 : 2.387 < b := by nlinarith
      have hb2 : b < 8.03 := by nlinarith
      have hb3 : 7.06 ≤ b := by
        by_contra hcon
        push Not at hcon
        rcases le_total b π with h | h
        · have h1 := sin_le (x := π - b) (by linarith)
          rw [sin_pi_sub] at h1
          norm_num at *
          linarith
        · rcases le_total b (2 * π) with h' | h'
          · have h1 := sin_nonneg_of_nonneg_of_le_pi (x := b - π) (by linarith) (by linarith)
            rw [sin_sub_pi] at h1
            linarith
          · have h1 := sin_le (x := b - 2 * π) (by linarith)
            rw [sin_sub_two_pi] at h1
            norm_num at *
            linarith
      have hB : sin b = cos (b - 2.5 * π) := by
        rw [show b - 2.5 * π = b - π / 2 - (1 : ℕ) * (2 * π) by push_cast; ring,
          cos_sub_nat_mul_two_pi, cos_sub_pi_div_two]
      have hu3 : u ≤ 512 - b ^ 2 := by linarith
      have hxb : x * sin b ≤ 512 * sin b := mul_le_mul_of_nonneg_right hx2 (by linarith)
      rcases le_or_gt b 7.55 with hb4 | hb4
      · exfalso
        have h1 : cos (b - 2.5 * π) ≤ cos 0.303 := by
          rw [← cos_neg (b - 2.5 * π)]
          apply cos_le_cos_of_nonneg_of_le_pi (by norm_num) (by norm_num at *; linarith)
            (by norm_num at *; linarith)
        have h2 := cos_le_four 0.303
        rw [← hB] at h1
        norm_num at *
        nlinarith
      · -- the neighbourhood of the minimiser
        obtain ⟨s, rfl⟩ : ∃ s, b = 7.7954 + s := ⟨b - 7.7954, by ring⟩
        have hs1 : -0.2455 ≤ s := by norm_num at *; linarith
        have hs2 : s ≤ 0.2455 := by norm_num at *; linarith
        have hbs : 7.7954 ^ 2 + 2 * 7.7954 * s ≤ (7.7954 + s) ^ 2 := by nlinarith [sq_nonneg s]
        -- the other argument
        have hal : a ≤ (768 - (7.7954 ^ 2 + 2 * 7.7954 * s) + 26.59382 ^ 2) / (2 * 26.59382) := by
          rw [le_div_iff₀ (by norm_num)]
          nlinarith [sq_nonneg (a - 26.59382)]
        have hl : 0.1097085 + 7.7954 / 26.59382 * s ≤ 8.5 * π - a := by
          norm_num at *
          linarith
        have hl0 : 0 ≤ 0.1097085 + 7.7954 / 26.59382 * s := by
          norm_num at *
          linarith
        have hcosA : sin a ≤ 1 - (0.1097085 + 7.7954 / 26.59382 * s) ^ 2 / 2 +
            (0.1097085 + 7.7954 / 26.59382 * s) ^ 4 / 24 := by
          rw [hA, ← cos_neg, neg_sub]
          exact (cos_le_cos_of_nonneg_of_le_pi hl0 (by norm_num at *; linarith) hl).trans
            (cos_le_four _)
        have hcosB : sin (7.7954 + s) ≤ 1 - (-0.058581634 + s) ^ 2 / 2 +
            (-0.058581634 + s) ^ 4 / 24 + 1 / 1000000000 := by
          rw [hB]
          have h1 := abs_le.1 (abs_cos_sub_cos_le (7.7954 + s - 2.5 * π) (-0.058581634 + s))
          have h2 : |7.7954 + s - 2.5 * π - (-0.058581634 + s)| ≤ 1 / 1000000000 := by
            rw [abs_le]
            norm_num at *
            constructor <;> linarith
          have h3 := cos_le_four (-0.058581634 + s)
          linarith [h1.2]
        have hpoly := egg_poly hs1 hs2
        have hu4 : u * sin a ≤ (512 - 7.7954 ^ 2 - 2 * 7.7954 * s) *
            (1 - (0.1097085 + 7.7954 / 26.59382 * s) ^ 2 / 2 +
            (0.1097085 + 7.7954 / 26.59382 * s) ^ 4 / 24) :=
          mul_le_mul (by linarith) hcosA (by linarith) (by norm_num at *; linarith)
        linarith

/-- Nowhere on the domain is the function below `-959.64072`. -/
theorem egg_le {x u : ℝ} (hx : |x| ≤ 512) (hu1 : -465 ≤ u) (hu2 : u ≤ 559) :
    egg x u ≤ 959.64072 := by
  by_contra hcon
  push Not at hcon
  have hS : 959.6 < egg x u := by linarith
  have hp1 := pi_gt_d4
  have hp2 := pi_lt_d4
  obtain ⟨hx1, hx2⟩ := abs_le.1 hx
  have hA1 := abs_le.1 (abs_sin_le_one √|x / 2 + u|)
  have hB1 := abs_le.1 (abs_sin_le_one √|x - u|)
  have hS' : 959.6 < u * sin √|x / 2 + u| + x * sin √|x - u| := hS
  -- the two products separately
  have hxB : x * sin √|x - u| ≤ |x| := by
    refine (le_abs_self _).trans ?_
    rw [abs_mul]
    exact mul_le_of_le_one_right (abs_nonneg _) (abs_sin_le_one _)
  have huA : u * sin √|x / 2 + u| ≤ |u| := by
    refine (le_abs_self _).trans ?_
    rw [abs_mul]
    exact mul_le_of_le_one_right (abs_nonneg _) (abs_sin_le_one _)
  have hu3 : |u| ≤ 559 := abs_le.2 ⟨by linarith, hu2⟩
  have hx3 : 400.6 < |x| := by linarith
  have hu4 : 447.6 < |u| := by linarith
  rcases le_total 0 x with hx0 | hx0
  · rw [abs_of_nonneg hx0] at *
    rcases le_total 0 u with hu0 | hu0
    · rw [abs_of_nonneg hu0] at hu4
      have := egg_corner hx3.le hx2 hu4.le hu2 hS
      linarith
    · rw [abs_of_nonpos hu0] at *
      have hneg : x / 2 + u ≤ 0 := by linarith
      obtain ⟨a1, a2⟩ := sqrt_bounds (z := |x / 2 + u|) (lo := 13.8) (hi := 15) (by norm_num)
        (by norm_num) (by rw [abs_of_nonpos hneg]; norm_num at *; linarith)
        (by rw [abs_of_nonpos hneg]; norm_num at *; linarith)
      have hA := sin_nonneg_of_turn (a := √|x / 2 + u|) 2 (by norm_num at *; linarith)
        (by norm_num at *; linarith)
      have := mul_nonneg (neg_nonneg.2 hu0) hA
      linarith
  · rw [abs_of_nonpos hx0] at *
    rcases le_total 0 u with hu0 | hu0
    · rw [abs_of_nonneg hu0] at *
      obtain ⟨b1, b2⟩ := sqrt_bounds (z := |x - u|) (lo := 30.975) (hi := 33) (by norm_num)
        (by norm_num) (by rw [abs_of_nonpos (by linarith)]; norm_num at *; linarith)
        (by rw [abs_of_nonpos (by linarith)]; norm_num at *; linarith)
      have hB : -0.45 ≤ sin √|x - u| := by
        have e : sin √|x - u| = sin (√|x - u| - (5 : ℕ) * (2 * π)) := by
          rw [sin_sub_nat_mul_two_pi]
        rw [e]
        rcases le_total (√|x - u| - (5 : ℕ) * (2 * π)) 0 with h | h
        · refine le_trans ?_ (le_sin h)
          push_cast
          norm_num at *
          linarith
        · refine le_trans (by norm_num) (sin_nonneg_of_nonneg_of_le_pi h ?_)
          push_cast
          norm_num at *
          linarith
      have := mul_le_mul_of_nonneg_left hB (neg_nonneg.2 hx0)
      linarith
    · rw [abs_of_nonpos hu0] at *
      obtain ⟨a1, a2⟩ := sqrt_bounds (z := |x / 2 + u|) (lo := 26) (hi := 27) (by norm_num)
        (by norm_num) (by rw [abs_of_nonpos (by linarith)]; norm_num at *; linarith)
        (by rw [abs_of_nonpos (by linarith)]; norm_num at *; linarith)
      have hA := sin_nonneg_of_turn (a := √|x / 2 + u|) 4 (by norm_num at *; linarith)
        (by norm_num at *; linarith)
      have := mul_nonneg (neg_nonneg.2 hu0) hA
      linarith

theorem eggholder_egg (x y : ℝ) :
    -(y + 47) * sin (√|x / 2 + y + 47|) - x * sin (√|x - (y + 47)|) = -egg x (y + 47) := by
  unfold egg
  rw [show x / 2 + (y + 47) = x / 2 + y + 47 by ring]
  ring

/-- The sine of a root, near the top of a wave. -/
theorem sin_sqrt_near {z : ℝ} (k : ℕ) (c p lo hi : ℝ) (hlo : 0 ≤ lo) (hhi : 0 ≤ hi)
    (h1 : lo ^ 2 ≤ z) (h2 : z ≤ hi ^ 2) (hp1 : c - p ≤ lo - π / 2 - k * (2 * π))
    (hp2 : hi - π / 2 - k * (2 * π) ≤ c + p) : |sin √z - cos c| ≤ p := by
  obtain ⟨g1, g2⟩ := sqrt_bounds hlo hhi h1 h2
  have e : sin √z = cos (√z - π / 2 - k * (2 * π)) := by
    rw [cos_sub_nat_mul_two_pi, cos_sub_pi_div_two]
  rw [e]
  refine (abs_cos_sub_cos_le _ _).trans ?_
  rw [abs_le]
  constructor <;> linarith

/-- The value at `(512, 404.2319)`. -/
theorem egg_at_min : 959.64065 < egg 512 451.2319 := by
  have hp1 := pi_gt_d20
  have hp2 := pi_lt_d20
  unfold egg
  have hA := abs_le.1 (sin_sqrt_near (z := |512 / 2 + 451.2319|) 4 (-0.1097055639) (1 / 1000000000)
    26.5938319916 26.5938319917 (by norm_num) (by norm_num) (by norm_num [abs_of_pos])
    (by norm_num [abs_of_pos]) (by norm_num at *; linarith) (by norm_num at *; linarith))
  have hB := abs_le.1 (sin_sqrt_near (z := |512 - 451.2319|) 1 (-0.0585919708) (1 / 1000000000)
    7.7953896631 7.7953896632 (by norm_num) (by norm_num) (by norm_num [abs_of_pos])
    (by norm_num [abs_of_pos]) (by norm_num at *; linarith) (by norm_num at *; linarith))
  have cA := cos_ge_six (-0.1097055639)
  have cB := cos_ge_six (-0.0585919708)
  have h1 : (0.993988375 : ℝ) ≤ sin √|512 / 2 + 451.2319| := by
    have : (0.993988377 : ℝ) ≤ cos (-0.1097055639) := le_trans (by norm_num) cA
    linarith [hA.1]
  have h2 : (0.998283980 : ℝ) ≤ sin √|512 - 451.2319| := by
    have : (0.9982839813 : ℝ) ≤ cos (-0.0585919708) := le_trans (by norm_num) cB
    linarith [hB.1]
  norm_num at *
  linarith

/-- The value at `(512, 404.3219)`. -/
theorem egg_at_documented : egg 512 451.3219 < 959.632 := by
  have hp1 := pi_gt_d20
  have hp2 := pi_lt_d20
  unfold egg
  have hA := abs_le.1 (sin_sqrt_near (z := |512 / 2 + 451.3219|) 4 (-0.1080134960) (1 / 100000000)
    26.5955240595 26.5955240596 (by norm_num) (by norm_num) (by norm_num [abs_of_pos])
    (by norm_num [abs_of_pos]) (by norm_num at *; linarith) (by norm_num at *; linarith))
  have hB := abs_le.1 (sin_sqrt_near (z := |512 - 451.3219|) 1 (-0.0643667526) (1 / 100000000)
    7.7896148813 7.7896148814 (by norm_num) (by norm_num) (by norm_num [abs_of_pos])
    (by norm_num [abs_of_pos]) (by norm_num at *; linarith) (by norm_num at *; linarith))
  have cA := cos_le_four (-0.1080134960)
  have cB := cos_le_four (-0.0643667526)
  have h1 : sin √|512 / 2 + 451.3219| ≤ (0.9941723 : ℝ) := by
    have : cos (-0.1080134960) ≤ (0.9941722200 : ℝ) := le_trans cA (by norm_num)
    linarith [hA.2]
  have h2 : sin √|512 - 451.3219| ≤ (0.9979292 : ℝ) := by
    have : cos (-0.0643667526) ≤ (0.9979291800 : ℝ) := le_trans cB (by norm_num)
    linarith [hB.2]
  norm_num at *
  linarith

/-- Eggholder: the documented value `-959.6407` is the global minimum, correct to its last digit;
it is attained (to that precision) at `(512, 404.2319)`.  At the point the documentation gives,
`(512, 404.3219)`, the value is larger: two digits are swapped there. -/
theorem C46_eggholder :
    (∃ v : ℝ, |v - -959.6407| < 0.00005 ∧
      eggholder (fun _ : Fin 1 => ![512, 404.2319]) = .ok fun _ => v) ∧
    (∃ v : ℝ, -959.632 < v ∧ eggholder (fun _ : Fin 1 => ![512, 404.3219]) = .ok fun _ => v) ∧
    ∀ n (x : Mat n 2 ℝ) c, eggholder x = .ok c → ∀ i, -959.64072 ≤ c i := by
  have hval : ∀ y : ℝ, -512 ≤ y → y ≤ 512 →
      eggholder (fun _ : Fin 1 => ![512, y]) = .ok fun _ => -egg 512 (y + 47) := by
    intro y h1 h2
    have := eggholder_form.val 1 (fun _ => ![512, y]) (fun _ j => by
      fin_cases j
      · simp
      · simp [h1, h2])
    rw [this]
    congr 1
    funext i
    exact eggholder_egg 512 y
  refine ⟨⟨_, ?_, hval 404.2319 (by norm_num) (by norm_num)⟩,
    ⟨_, ?_, hval 404.3219 (by norm_num) (by norm_num)⟩, ?_⟩
  · have h1 := egg_at_min
    have h2 := egg_le (x := 512) (u := 451.2319) (by norm_num) (by norm_num) (by norm_num)
    rw [show (404.2319 : ℝ) + 47 = 451.2319 by norm_num, abs_lt]
    constructor <;> linarith
  · rw [show (404.3219 : ℝ) + 47 = 451.3219 by norm_num]
    linarith [egg_at_documented]
  · intro n x c hc i
    obtain ⟨hbox, rfl⟩ := eggholder_form.inBox hc
    have h0 := hbox i 0
    have h1 := hbox i 1
    dsimp only at h0 h1 ⊢
    rw [eggholder_egg]
    have := egg_le (x := x i 0) (u := x i 1 + 47) (abs_le.2 h0) (by linarith [h1.1])
      (by linarith [h1.2])
    linarith

end PySwarms.Bench
