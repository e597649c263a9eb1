import Verif.Props.ReflectiveFar

/-!
How far `shrink` leaves the bounds in binary64 arithmetic (C67).
-/

namespace PySwarms

/-- One coordinate: how far above the upper bound it can be put. -/
theorem shrink_above {lb ub m x σ : ℚ} (hub : IsDouble ub) (h1 : lb ≤ m) (h2 : m ≤ ub)
    (hs0 : 0 ≤ σ) (hs1 : σ ≤ 1) (hs : ub < x → σ ≤ f64 (f64 (ub - m) / f64 (x - m)))
    (ht : (2 : ℚ) ^ (-1074 : ℤ) ≤ (|lb| + |ub|) / 2 ^ 60)
    (hD : |f64 (x - m)| * 2 ^ (-1074 : ℤ) ≤ (|lb| + |ub|) / 2 ^ 60) :
    f64 (m + f64 (σ * f64 (x - m))) ≤ ub + (|lb| + |ub|) / 2 ^ 50 := by
  have htp := two_zpow_pos (-1074)
  have herr := f64_err
  generalize (2 : ℚ) ^ (-1074 : ℤ) = t at ht hD htp herr
  have b1 := neg_abs_le lb
  have b2 := le_abs_self ub
  have b3 := neg_abs_le ub
  have b4 := le_abs_self lb
  have b5 := abs_nonneg lb
  have b6 := abs_nonneg ub
  by_cases hneg : f64 (x - m) ≤ 0
  · have : f64 (σ * f64 (x - m)) ≤ 0 := by
      have h := f64_mono (mul_nonpos_of_nonneg_of_nonpos hs0 hneg)
      rwa [f64_of_isDouble (x := 0) ⟨0, 0, by norm_num, by norm_num, by norm_num⟩] at h
    have h := f64_mono (show m + f64 (σ * f64 (x - m)) ≤ ub by linarith)
    rw [f64_of_isDouble hub] at h
    refine le_trans h ?_
    have : 0 ≤ (|lb| + |ub|) / 2 ^ 50 := by positivity
    linarith
  · have hpos : 0 < f64 (x - m) := not_le.1 hneg
    have hP0 : 0 ≤ f64 (σ * f64 (x - m)) := f64_nonneg (mul_nonneg hs0 hpos.le)
    have hP : f64 (σ * f64 (x - m)) ≤ (ub - m) + (|lb| + |ub|) / 2 ^ 51 := by
      by_cases hx : ub < x
      · have hN := abs_le.1 (herr (ub - m))
        rw [abs_of_nonneg (show (0 : ℚ) ≤ ub - m by linarith)] at hN
        have hN0 : 0 ≤ f64 (ub - m) := f64_nonneg (by linarith)
        have hq0 : 0 ≤ f64 (ub - m) / f64 (x - m) := div_nonneg hN0 hpos.le
        have hq := abs_le.1 (herr (f64 (ub - m) / f64 (x - m)))
        rw [abs_of_nonneg hq0] at hq
        have hsD : σ * f64 (x - m) ≤ f64 (ub - m) * (1 + 1 / 2 ^ 53) +
            |f64 (x - m)| * t / 2 := by
          have h3 : σ * f64 (x - m) ≤ ((f64 (ub - m) / f64 (x - m)) * (1 + 1 / 2 ^ 53) + t / 2) *
              f64 (x - m) := by
            refine mul_le_mul_of_nonneg_right ?_ hpos.le
            have := hs hx
            linarith [hq.2]
          refine le_trans h3 (le_of_eq ?_)
          rw [abs_of_pos hpos]
          field_simp
        have hp := abs_le.1 (herr (σ * f64 (x - m)))
        rw [abs_of_nonneg (mul_nonneg hs0 hpos.le)] at hp
        have hp2 := hp.2
        have hN2 := hN.2
        generalize f64 (σ * f64 (x - m)) = P at *
        generalize σ * f64 (x - m) = Q at *
        generalize f64 (ub - m) = N at *
        norm_num at *
        linarith
      · have hD2 := abs_le.1 (herr (x - m))
        have hxm : 0 ≤ x - m := by
          by_contra hcon
          have h := f64_mono (show x - m ≤ 0 by linarith)
          rw [f64_of_isDouble (x := 0) ⟨0, 0, by norm_num, by norm_num, by norm_num⟩] at h
          linarith
        rw [abs_of_nonneg hxm] at hD2
        have hle : f64 (σ * f64 (x - m)) ≤ f64 (x - m) := by
          have h := f64_mono (show σ * f64 (x - m) ≤ f64 (x - m) from by
            have := mul_le_mul_of_nonneg_right hs1 hpos.le
            linarith)
          rwa [f64_idem] at h
        have hD3 := hD2.2
        generalize f64 (σ * f64 (x - m)) = P at *
        generalize f64 (x - m) = D at *
        norm_num at *
        linarith
    have hy := abs_le.1 (herr (m + f64 (σ * f64 (x - m))))
    have habs : |m + f64 (σ * f64 (x - m))| ≤ 2 * (|lb| + |ub|) := by
      rw [abs_le]
      constructor
      · linarith
      · have : (|lb| + |ub|) / 2 ^ 51 ≤ |lb| + |ub| := by
          rw [div_le_iff₀ (by norm_num)]
          norm_num
          linarith
        linarith
    have hy2 := hy.2
    generalize f64 (m + f64 (σ * f64 (x - m))) = Y at *
    generalize f64 (σ * f64 (x - m)) = P at *
    generalize |m + P| = A at *
    norm_num at *
    linarith

/-- One coordinate: how far below the lower bound it can be put. -/
theorem shrink_below {lb ub m x σ : ℚ} (hlb : IsDouble lb) (h1 : lb ≤ m) (h2 : m ≤ ub)
    (hs0 : 0 ≤ σ) (hs1 : σ ≤ 1) (hs : x < lb → σ ≤ f64 (f64 (lb - m) / f64 (x - m)))
    (ht : (2 : ℚ) ^ (-1074 : ℤ) ≤ (|lb| + |ub|) / 2 ^ 60)
    (hD : |f64 (x - m)| * 2 ^ (-1074 : ℤ) ≤ (|lb| + |ub|) / 2 ^ 60) :
    lb - (|lb| + |ub|) / 2 ^ 50 ≤ f64 (m + f64 (σ * f64 (x - m))) := by
  have e1 : f64 (-x - -m) = -f64 (x - m) := by rw [← f64_neg]; congr 1; ring
  have e2 : f64 (-lb - -m) = -f64 (lb - m) := by rw [← f64_neg]; congr 1; ring
  have h := shrink_above (lb := -ub) (ub := -lb) (m := -m) (x := -x) (σ := σ) (isDouble_neg hlb)
    (by linarith) (by linarith) hs0 hs1
    (fun hx => by
      rw [e1, e2, neg_div_neg_eq]
      exact hs (by linarith))
    (by rw [abs_neg, abs_neg, add_comm]; exact ht)
    (by rw [e1, abs_neg, abs_neg, abs_neg, add_comm |ub|]; exact hD)
  rw [e1, abs_neg, abs_neg, mul_neg, f64_neg, ← neg_add, f64_neg, add_comm |ub|] at h
  linarith

/-- **C67** (`shrink`).  In binary64 arithmetic, if the previous positions are inside bounds that are
doubles, `shrink` returns positions at most `2^-50` times `|lb| + |ub|` outside (for bounds that are not
microscopic and steps that are not astronomic compared with them). -/
theorem C67_shrink_excursion {n d : Nat} (b : Bounds d ℚ) (hb : DoubleBounds b)
    (hS : ∀ j, (2 : ℚ) ^ (-1000 : ℤ) ≤ |b.1 j| + |b.2 j|) (m x : Mat n d ℚ) (hm : InBox b m)
    (hx : ∀ i j, |x i j| ≤ 2 ^ (1000 : ℤ) * (|b.1 j| + |b.2 j|)) (r : BHDraw d ℚ)
    (mem' : Option (Mat n d ℚ)) (y : Mat n d ℚ)
    (h : bhCallR f64 "shrink" (some m) b r x = (mem', .ok y)) (i : Fin n) (j : Fin d) :
    b.1 j - (|b.1 j| + |b.2 j|) / 2 ^ 50 ≤ y i j ∧ y i j ≤ b.2 j + (|b.1 j| + |b.2 j|) / 2 ^ 50 := by
  have hSp : 0 ≤ (|b.1 j| + |b.2 j|) / 2 ^ 50 := by positivity
  rw [bhCallR, if_neg (by decide), if_neg (by decide), if_pos rfl] at h
  unfold bhShrinkR at h
  dsimp only at h
  split at h
  · cases h
  rename_i hany
  split at h
  · cases h
  rename_i hd0
  simp only [Prod.mk.injEq, Except.ok.injEq] at h
  obtain ⟨_, rfl⟩ := h
  have hne : ∀ i j, (x i j < b.1 j ∨ b.2 j < x i j) → f64 (x i j - m i j) ≠ 0 := by
    intro i j ho he
    apply hany
    rw [List.any_eq_true]
    refine ⟨i, List.mem_finRange i, ?_⟩
    rw [List.any_eq_true]
    refine ⟨j, List.mem_finRange j, ?_⟩
    rw [Bool.and_eq_true, Bool.or_eq_true]
    refine ⟨?_, by simpa using he⟩
    rcases ho with ho | ho
    · left; simpa [isLow] using ho
    · right; simpa [isHigh] using ho
  by_cases hout : (rowLow b x i || rowHigh b x i) = true
  · dsimp only
    rw [if_pos hout]
    obtain ⟨s, hs, hle, ⟨k, hk⟩⟩ := rowMin_spec (shrinkSigmaR f64 b m x i) (by omega)
    rw [hs]
    dsimp only
    have h1d : IsDouble (1 : ℚ) := ⟨1, 0, by norm_num, by norm_num, by norm_num⟩
    have hsig : ∀ k, 0 ≤ shrinkSigmaR f64 b m x i k ∧ shrinkSigmaR f64 b m x i k ≤ 1 := by
      intro k
      have hmk := hm i k
      unfold shrinkSigmaR
      dsimp only
      simp only [isLow, isHigh, decide_eq_true_eq, gt_iff_lt]
      by_cases hhi : b.2 k < x i k
      · rw [if_pos hhi]
        have hp : 0 < f64 (x i k - m i k) :=
          lt_of_le_of_ne (f64_nonneg (by linarith [hmk.2])) (Ne.symm (hne i k (Or.inr hhi)))
        have hn0 : 0 ≤ f64 (b.2 k - m i k) := f64_nonneg (by linarith [hmk.2])
        refine ⟨f64_nonneg (div_nonneg hn0 hp.le), fl_le_of_le (f64_of_isDouble h1d) ?_⟩
        rw [div_le_one hp]
        exact f64_mono (by linarith)
      · rw [if_neg hhi]
        by_cases hlo : x i k < b.1 k
        · rw [if_pos hlo]
          have e1 : f64 (x i k - m i k) = -f64 (m i k - x i k) := by rw [← f64_neg]; congr 1; ring
          have e2 : f64 (b.1 k - m i k) = -f64 (m i k - b.1 k) := by rw [← f64_neg]; congr 1; ring
          have hp : 0 < f64 (m i k - x i k) := by
            refine lt_of_le_of_ne (f64_nonneg (by linarith [hmk.1])) ?_
            intro hcon
            apply hne i k (Or.inl hlo)
            rw [e1, ← hcon, neg_zero]
          have hn0 : 0 ≤ f64 (m i k - b.1 k) := f64_nonneg (by linarith [hmk.1])
          rw [e1, e2, neg_div_neg_eq]
          refine ⟨f64_nonneg (div_nonneg hn0 hp.le), fl_le_of_le (f64_of_isDouble h1d) ?_⟩
          rw [div_le_one hp]
          exact f64_mono (by linarith)
        · rw [if_neg hlo]
          norm_num
    have hs0 : 0 ≤ s := by rw [hk]; exact (hsig k).1
    have hs1 : s ≤ 1 := by rw [hk]; exact (hsig k).2
    have hsj := hle j
    have hlow : x i j < b.1 j → s ≤ f64 (f64 (b.1 j - m i j) / f64 (x i j - m i j)) := by
      intro hlo
      have hhi : ¬ b.2 j < x i j := by linarith [hb.1 j]
      unfold shrinkSigmaR at hsj
      simp only [isLow, isHigh, decide_eq_true_eq, gt_iff_lt] at hsj
      rwa [if_neg hhi, if_pos hlo] at hsj
    have hhigh : b.2 j < x i j → s ≤ f64 (f64 (b.2 j - m i j) / f64 (x i j - m i j)) := by
      intro hhi
      unfold shrinkSigmaR at hsj
      simp only [isLow, isHigh, decide_eq_true_eq, gt_iff_lt] at hsj
      rwa [if_pos hhi] at hsj
    have hmj := hm i j
    have e1000 : (2 : ℚ) ^ (-1074 : ℤ) = 2 ^ (-1000 : ℤ) / 2 ^ 74 := by
      rw [show (-1074 : ℤ) = -1000 + -74 by norm_num, zpow_add₀ (by norm_num)]
      norm_num [zpow_neg]
      ring
    have e1 : (2 : ℚ) ^ (1000 : ℤ) * 2 ^ (-1074 : ℤ) = 1 / 2 ^ 74 := by
      rw [← zpow_add₀ (by norm_num)]
      norm_num
    have hS' := hS j
    have ht : (2 : ℚ) ^ (-1074 : ℤ) ≤ (|b.1 j| + |b.2 j|) / 2 ^ 74 := by
      rw [e1000]
      exact div_le_div_of_nonneg_right hS' (by norm_num)
    have hSn : 0 ≤ |b.1 j| + |b.2 j| := by positivity
    have ht0 := two_zpow_pos (-1074)
    have hD : |f64 (x i j - m i j)| * 2 ^ (-1074 : ℤ) ≤ (|b.1 j| + |b.2 j|) / 2 ^ 60 := by
      have herr := f64_err (x i j - m i j)
      have hxm : |x i j - m i j| ≤ |x i j| + (|b.1 j| + |b.2 j|) := by
        have a1 := neg_abs_le (b.1 j)
        have a2 := le_abs_self (b.2 j)
        have a3 := neg_abs_le (x i j)
        have a4 := le_abs_self (x i j)
        have a5 := abs_nonneg (b.1 j)
        have a6 := abs_nonneg (b.2 j)
        rw [abs_le]
        constructor <;> linarith [hmj.1, hmj.2]
      have hDb : |f64 (x i j - m i j)| ≤
          2 * (2 ^ (1000 : ℤ) * (|b.1 j| + |b.2 j|)) + 3 * (|b.1 j| + |b.2 j|) := by
        have h1 : |f64 (x i j - m i j)| ≤ |x i j - m i j| + |f64 (x i j - m i j) - (x i j - m i j)| := by
          have := abs_add_le (x i j - m i j) (f64 (x i j - m i j) - (x i j - m i j))
          rwa [add_sub_cancel] at this
        have h2 : |x i j - m i j| / 2 ^ 53 ≤ |x i j - m i j| := by
          have := abs_nonneg (x i j - m i j)
          rw [div_le_iff₀ (by norm_num)]
          norm_num
          linarith
        have h3 : (|b.1 j| + |b.2 j|) / 2 ^ 74 ≤ |b.1 j| + |b.2 j| := by
          rw [div_le_iff₀ (by norm_num)]
          norm_num
          linarith
        have h8 := hx i j
        generalize (2 : ℚ) ^ (1000 : ℤ) * (|b.1 j| + |b.2 j|) = B at h8 ⊢
        generalize (2 : ℚ) ^ (-1074 : ℤ) = t at herr ht
        generalize |f64 (x i j - m i j) - (x i j - m i j)| = E at h1 herr
        linarith
      have h4 := mul_le_mul_of_nonneg_right hDb ht0.le
      have h5 : (2 * (2 ^ (1000 : ℤ) * (|b.1 j| + |b.2 j|)) + 3 * (|b.1 j| + |b.2 j|)) *
          2 ^ (-1074 : ℤ) = 2 * (|b.1 j| + |b.2 j|) * ((2 : ℚ) ^ (1000 : ℤ) * 2 ^ (-1074 : ℤ)) +
            3 * (|b.1 j| + |b.2 j|) * 2 ^ (-1074 : ℤ) := by ring
      rw [h5, e1] at h4
      have h6 : (2 : ℚ) ^ (-1074 : ℤ) ≤ 1 / 2 ^ 74 := by
        rw [← e1]
        have : (1 : ℚ) ≤ 2 ^ (1000 : ℤ) := one_le_zpow₀ (by norm_num) (by norm_num)
        have := mul_le_mul_of_nonneg_right this ht0.le
        rwa [one_mul] at this
      have h7 : 3 * (|b.1 j| + |b.2 j|) * (2 : ℚ) ^ (-1074 : ℤ) ≤
          3 * (|b.1 j| + |b.2 j|) * (1 / 2 ^ 74) :=
        mul_le_mul_of_nonneg_left h6 (by linarith)
      refine le_trans h4 ?_
      refine le_trans (add_le_add_right h7 _) ?_
      generalize |b.1 j| + |b.2 j| = S at *
      norm_num
      linarith
    have ht' : (2 : ℚ) ^ (-1074 : ℤ) ≤ (|b.1 j| + |b.2 j|) / 2 ^ 60 := by
      refine le_trans ht ?_
      generalize |b.1 j| + |b.2 j| = S at *
      norm_num
      linarith
    exact ⟨shrink_below (hb.2 j).1 hmj.1 hmj.2 hs0 hs1 hlow ht' hD,
      shrink_above (hb.2 j).2 hmj.1 hmj.2 hs0 hs1 hhigh ht' hD⟩
  · dsimp only
    rw [if_neg hout]
    have hrow := hout
    rw [Bool.or_eq_true, not_or] at hrow
    have h1 : ¬ x i j < b.1 j := by
      intro hlo
      apply hrow.1
      unfold rowLow
      rw [List.any_eq_true]
      exact ⟨j, List.mem_finRange j, by simpa [isLow] using hlo⟩
    have h2 : ¬ b.2 j < x i j := by
      intro hhi
      apply hrow.2
      unfold rowHigh
      rw [List.any_eq_true]
      exact ⟨j, List.mem_finRange j, by simpa [isHigh] using hhi⟩
    constructor <;> linarith

/-- Non-vacuity: the step of `C67_shrink_leaves` meets the hypotheses; `shrink` moves the particle, and out
of the bounds. -/
example : DoubleBounds ((fun _ => -5, fun _ => 5) : Bounds 1 ℚ) ∧
    (∀ j : Fin 1, (2 : ℚ) ^ (-1000 : ℤ) ≤ |((fun _ => -5, fun _ => 5) : Bounds 1 ℚ).1 j| +
      |((fun _ => -5, fun _ => 5) : Bounds 1 ℚ).2 j|) ∧
    InBox ((fun _ => -5, fun _ => 5) : Bounds 1 ℚ) (fun _ _ => 1 / 4 : Mat 1 1 ℚ) ∧
    |(-37 / 4 : ℚ)| ≤ 2 ^ (1000 : ℤ) * (|(-5 : ℚ)| + |5|) := by
  have h1 : (1 : ℚ) ≤ 2 ^ (1000 : ℤ) := one_le_zpow₀ (by norm_num) (by norm_num)
  have h2 : (2 : ℚ) ^ (-1000 : ℤ) ≤ 1 := zpow_le_one_of_nonpos₀ (by norm_num) (by norm_num)
  refine ⟨⟨fun _ => by norm_num, fun _ => ⟨⟨-5, 0, by norm_num, by norm_num, by norm_num⟩,
    ⟨5, 0, by norm_num, by norm_num, by norm_num⟩⟩⟩, fun _ => ?_, fun _ _ => by norm_num, ?_⟩
  · refine le_trans h2 ?_
    norm_num
  · have e : |(-37 / 4 : ℚ)| = 37 / 4 := by rw [abs_of_neg (by norm_num)]; norm_num
    have e' : |(-5 : ℚ)| + |5| = 10 := by norm_num
    rw [e, e']
    generalize (2 : ℚ) ^ (1000 : ℤ) = B at h1
    linarith

namespace Ex

/-- Two particles in [-1, 0] × [0, 1]. -/
def throwBox : Bounds 2 ℚ := (fun j => if j = 0 then -1 else 0, fun j => if j = 0 then 0 else 1)

/-- A GlobalBestPSO with the strategy `shrink` and a tiny inertia. -/
def throwCfg : Config 2 2 ℚ where
  kind := .globalBest
  options := [("c1", 1), ("c2", 10), ("w", 1 / 2 ^ 100)]
  center := fun _ => 1
  bounds := some throwBox
  bhStrategy := "shrink"

/-- Binary64 arithmetic. -/
def throwArith : Arith 2 2 ℚ where
  fl := f64
  mean := fun c => roundX f64 (npMean c)
  sig := id
  oh := fun _ _ _ _ => .ok throwCfg.options

/-- The random numbers: in the first iteration the first coordinate is drawn to the best position, in the
second iteration the second one. -/
def throwDraw (t : Nat) : Draw 2 2 ℚ := { draw 2 2 with
  r1 := fun _ _ => 0
  r2 := fun _ j => if t = 0 then (if j = 0 then 1 / 2 else 0) else (if j = 0 then 0 else 1 / 32) }

/-- The start. -/
def throwStart : Opt 2 2 ℚ :=
  { swarm := mkSwarm (fun i j => if i = 0 then (if j = 0 then -7 / 32 else 1 / 2)
      else (if j = 0 then -1 / 16 else 1)) (fun _ _ => 0) throwCfg.options }

/-- The objective: the second particle is always the better one. -/
def throwEv : Nat → Mat 2 2 ℚ → Except Err (Costs 2 ℚ) :=
  fun _ _ => .ok fun i => .fin (if i = 0 then 1 else 0)

end Ex

/-- **C67** (`shrink`).  That the previous positions are inside the bounds is needed, and does not last: once a
rounding error has put a coordinate outside a bound, the next step can be shrunk by a huge negative
factor.  In this run of GlobalBestPSO in binary64 arithmetic, in the box [-1, 0] × [0, 1] with all random numbers
in [0, 1), the objective is evaluated at a position more than 7000000000000 outside. -/
theorem C67_shrink_throws : ∃ (A : Arith 2 2 ℚ) (cfg : Config 2 2 ℚ) (b : Bounds 2 ℚ)
    (s : Opt 2 2 ℚ), A.fl = f64 ∧ cfg.kind = .globalBest ∧ cfg.bounds = some b ∧ DoubleBounds b ∧
    (∀ j, b.1 j ≥ -1 ∧ b.2 j ≤ 1) ∧ cfg.bhStrategy = "shrink" ∧
    RunsR A cfg (InBox b) (fun _ => True) (fun r => r.Legal ∧ r.bh.Samples) s ∧
    ∃ e ∈ s.evals, ∃ i j, e.1 i j < -7000000000000 := by
  refine ⟨Ex.throwArith, Ex.throwCfg, Ex.throwBox,
    (optimizeR Ex.throwArith Ex.throwCfg Ex.throwEv 3 none Ex.throwDraw Ex.throwStart).1, rfl, rfl, rfl,
    ?_, ?_, rfl, ?_, ?_⟩
  · refine ⟨?_, Fin.forall_fin_two.2 ⟨?_, ?_⟩⟩
    · unfold ProperBounds
      decide +kernel
    · exact ⟨⟨-1, 0, by norm_num, by norm_num, by norm_num [Ex.throwBox]⟩,
        ⟨0, 0, by norm_num, by norm_num, by norm_num [Ex.throwBox]⟩⟩
    · exact ⟨⟨0, 0, by norm_num, by norm_num, by norm_num [Ex.throwBox]⟩,
        ⟨1, 0, by norm_num, by norm_num, by norm_num [Ex.throwBox]⟩⟩
  · decide +kernel
  · refine RunsR.optimized _ _ _ _ _ ?_ ?_
    · exact RunsR.created _ _ {} none none 0 (by unfold InBox; decide +kernel) trivial
    · intro t
      obtain ⟨_, _, h3, h4, h5⟩ := Ex.draw_legal 2 2
      refine ⟨⟨fun _ _ => ⟨le_rfl, by norm_num [Ex.throwDraw]⟩, fun i j => ?_, h3, h4, h5⟩, fun j => ⟨⟨2 ^ 52, by norm_num, ?_⟩, ⟨2 ^ 51, by norm_num, ?_⟩⟩⟩
      · simp only [Ex.throwDraw]
        split_ifs <;> constructor <;> norm_num
      · simp only [Ex.throwDraw, Ex.draw]
        norm_num
      · simp only [Ex.throwDraw, Ex.draw]
        norm_num
  · have h : (optimizeR Ex.throwArith Ex.throwCfg Ex.throwEv 3 none Ex.throwDraw
        Ex.throwStart).1.evals.any (fun e => decide (e.1 0 1 < -7000000000000)) = true := by
      decide +kernel
    rw [List.any_eq_true] at h
    obtain ⟨e, he, h⟩ := h
    exact ⟨e, he, 0, 1, of_decide_eq_true h⟩

end PySwarms
