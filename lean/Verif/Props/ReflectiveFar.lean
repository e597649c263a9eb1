import Verif.Props.Rounding

/-! # C67: reflective hangs for every far-away position -/

namespace PySwarms

/-- A small change of a double is rounded away. -/
theorem f64_absorb_pos {x e : ℚ} (hx : 0 < x) (hd : IsDouble x) (he : |e| ≤ x / 2 ^ 55) :
    f64 (x + e) = x := by
  have he' := abs_le.1 he
  have hsmall : x / 2 ^ 55 ≤ x / 2 := by
    have : (0 : ℚ) < x := hx
    rw [div_le_div_iff₀ (by norm_num) (by norm_num)]
    nlinarith
  have hy : 0 < x + e := by linarith
  have hxy : x ≤ 2 * (x + e) := by linarith
  generalize hyy : x + e = y at hy hxy ⊢
  have hp := lastPlace_lt y
  have hlow := fun h => lastPlace_le (x := y) hy h
  have hge : (-1074 : ℤ) ≤ lastPlace y := le_max_right _ _
  generalize hpp : lastPlace y = p at hp hlow hge
  have hpos := two_zpow_pos p
  have hshift : ∀ k : ℕ, (2 : ℚ) ^ (p + k) = 2 ^ p * 2 ^ k := fun k => by
    rw [zpow_add₀ (by norm_num), zpow_natCast]
  have h53 : (2 : ℚ) ^ (p + 53) = 2 ^ p * 2 ^ 53 := hshift 53
  have h52 : (2 : ℚ) ^ (p + 52) = 2 ^ p * 2 ^ 52 := hshift 52
  rw [h53] at hp
  rw [h52] at hlow
  -- the change is less than half a unit in the last place
  have hhalf : |e| < 2 ^ p / 2 := by
    refine lt_of_le_of_lt he ?_
    rw [div_lt_iff₀ (by norm_num)]
    norm_num at hp ⊢
    linarith
  -- x is a multiple of the last place
  obtain ⟨k, hk⟩ : ∃ k : ℤ, x = k * 2 ^ p := by
    obtain ⟨m, q, hm, hq, rfl⟩ := hd
    by_cases hqp : p ≤ q
    · refine ⟨m * 2 ^ (q - p).toNat, ?_⟩
      have : (2 : ℚ) ^ q = 2 ^ (q - p).toNat * 2 ^ p := by
        rw [← zpow_natCast, ← zpow_add₀ (by norm_num)]
        congr 1
        omega
      rw [this]
      push_cast
      ring
    · have hq1 : q + 1 ≤ p := by omega
      have hl := hlow (by omega)
      have hqpos := two_zpow_pos q
      have hmpos : 0 < m := by
        by_contra hneg
        have : (m : ℚ) ≤ 0 := by exact_mod_cast not_lt.1 hneg
        have := mul_nonpos_of_nonpos_of_nonneg this hqpos.le
        linarith
      have hm' : m ≤ 2 ^ 53 := le_trans (le_abs_self m) hm
      have hmq : (m : ℚ) ≤ 2 ^ 53 := by exact_mod_cast hm'
      have hqq : (2 : ℚ) ^ (q + 1) ≤ 2 ^ p := two_zpow_le hq1
      have hq2 : (2 : ℚ) ^ (q + 1) = 2 * 2 ^ q := by
        rw [zpow_add₀ (by norm_num)]; ring
      rw [hq2] at hqq
      have hxle : (m : ℚ) * 2 ^ q ≤ 2 ^ 53 * 2 ^ q :=
        mul_le_mul_of_nonneg_right hmq hqpos.le
      have hele : e ≤ (m : ℚ) * 2 ^ q / 2 ^ 55 := he'.2
      -- m must be 2^53 and q + 1 = p
      have hmeq : m = 2 ^ 53 := by
        by_contra hne
        have h1 : m ≤ 2 ^ 53 - 1 := by omega
        have h2 : (m : ℚ) ≤ 2 ^ 53 - 1 := by exact_mod_cast h1
        have h3 : (m : ℚ) * 2 ^ q ≤ (2 ^ 53 - 1) * 2 ^ q :=
          mul_le_mul_of_nonneg_right h2 hqpos.le
        norm_num at h3 hele hl hxle
        linarith
      have hqeq : q + 1 = p := by
        by_contra hne
        have h1 : q + 2 ≤ p := by omega
        have h2 : (2 : ℚ) ^ (q + 2) ≤ 2 ^ p := two_zpow_le h1
        have h3 : (2 : ℚ) ^ (q + 2) = 4 * 2 ^ q := by
          rw [zpow_add₀ (by norm_num)]; norm_num; ring
        rw [h3] at h2
        norm_num at hele hl hxle
        linarith
      refine ⟨2 ^ 52, ?_⟩
      rw [hmeq, ← hqeq, hq2]
      push_cast
      ring
  have hy0 : ¬ y < 0 := not_lt.2 hy.le
  have hdiv : y / 2 ^ p = k + e / 2 ^ p := by
    rw [← hyy, hk]
    field_simp
  have hb : |e / 2 ^ p| < 1 / 2 := by
    rw [abs_div, abs_of_pos hpos, div_lt_iff₀ hpos]
    linarith
  have hb' := abs_lt.1 hb
  have hround : roundEven (y / 2 ^ p) = k := by
    have h1 := roundEven_near (y / 2 ^ p)
    rw [hdiv] at h1 ⊢
    have h2 : ((roundEven (k + e / 2 ^ p) : ℤ) : ℚ) < k + 1 := by linarith [h1.1]
    have h3 : (k : ℚ) - 1 < (roundEven (k + e / 2 ^ p) : ℤ) := by linarith [h1.2]
    have h4 : roundEven ((k : ℚ) + e / 2 ^ p) < k + 1 := by exact_mod_cast h2
    have h5 : k - 1 < roundEven ((k : ℚ) + e / 2 ^ p) := by exact_mod_cast h3
    omega
  unfold f64
  rw [if_neg hy0]
  unfold f64pos
  rw [hpp, hround, hk]

theorem f64_absorb {x e : ℚ} (hx : x ≠ 0) (hd : IsDouble x) (he : |e| ≤ |x| / 2 ^ 55) :
    f64 (x + e) = x := by
  rcases lt_or_gt_of_ne hx with h | h
  · have hd' : IsDouble (-x) := by
      obtain ⟨m, q, hm, hq, rfl⟩ := hd
      exact ⟨-m, q, by rwa [abs_neg], hq, by push_cast; ring⟩
    rw [abs_of_neg h] at he
    have := f64_absorb_pos (x := -x) (e := -e) (by linarith) hd' (by rwa [abs_neg])
    have h2 : -x + -e = -(x + e) := by ring
    rw [h2, f64_neg] at this
    linarith
  · rw [abs_of_pos h] at he
    exact f64_absorb_pos h hd he

theorem isDouble_neg {x : ℚ} (hd : IsDouble x) : IsDouble (-x) := by
  obtain ⟨m, q, hm, hq, rfl⟩ := hd
  exact ⟨-m, q, by rwa [abs_neg], hq, by push_cast; ring⟩

/-- **C67** (`reflective`).  In binary64 arithmetic, for bounds that are doubles: if any coordinate of
any particle is a double at least `2^56` times as far from 0 as both bounds of its dimension, the
`while` loop of `reflective` never ends, whatever the other coordinates and particles do: the
coordinate only changes its sign. -/
theorem C67_reflective_far {n d : Nat} (b : Bounds d ℚ) (hb : DoubleBounds b) (x : Mat n d ℚ)
    (i : Fin n) (j : Fin d) (hx : x i j ≠ 0) (hd : IsDouble (x i j))
    (hl : 2 ^ 56 * |b.1 j| ≤ |x i j|) (hu : 2 ^ 56 * |b.2 j| ≤ |x i j|) (passes : Nat) :
    bhReflectiveR f64 b passes x = .error .diverges := by
  have hlb := (hb.2 j).1
  have hub := (hb.2 j).2
  have f1 : f64 (2 * b.1 j) = 2 * b.1 j := by
    have := f64_two (b.1 j); rwa [f64_of_isDouble hlb] at this
  have f2 : f64 (2 * b.2 j) = 2 * b.2 j := by
    have := f64_two (b.2 j); rwa [f64_of_isDouble hub] at this
  have main : ∀ m (y : Mat n d ℚ), (y i j = x i j ∨ y i j = -x i j) →
      bhReflectiveR f64 b m y = .error .diverges := by
    have hpos : 0 < |x i j| := abs_pos.2 hx
    have habs : ∀ y : Mat n d ℚ, (y i j = x i j ∨ y i j = -x i j) → |y i j| = |x i j| := by
      intro y hy
      rcases hy with h | h
      · rw [h]
      · rw [h, abs_neg]
    have hdy : ∀ y : Mat n d ℚ, (y i j = x i j ∨ y i j = -x i j) → IsDouble (y i j) := by
      intro y hy
      rcases hy with h | h
      · rw [h]; exact hd
      · rw [h]; exact isDouble_neg hd
    have hout : ∀ y : Mat n d ℚ, (y i j = x i j ∨ y i j = -x i j) → anyOut b y = true := by
      intro y hy
      rw [← Bool.not_eq_false, anyOut_false_iff]
      intro hin
      obtain ⟨h1, h2⟩ := hin i j
      have h3 := habs y hy
      have hle : |y i j| ≤ max |b.1 j| |b.2 j| := abs_le_max_abs_abs h1 h2
      have h4 : 2 ^ 56 * max |b.1 j| |b.2 j| ≤ |x i j| := by
        rcases max_choice |b.1 j| |b.2 j| with h | h <;> rw [h] <;> assumption
      rw [h3] at hle
      linarith
    have hpass : ∀ y : Mat n d ℚ, (y i j = x i j ∨ y i j = -x i j) →
        reflectPassR f64 b y i j = -y i j := by
      intro y hy
      have h3 := habs y hy
      have hy0 : -y i j ≠ 0 := by
        intro h0
        rw [neg_eq_zero] at h0
        rw [h0, abs_zero] at h3
        linarith
      have e1 : f64 (2 * b.1 j - y i j) = -y i j := by
        have : 2 * b.1 j - y i j = -y i j + 2 * b.1 j := by ring
        rw [this]
        refine f64_absorb hy0 (isDouble_neg (hdy y hy)) ?_
        rw [abs_neg, h3, abs_mul, abs_of_pos (by norm_num : (0 : ℚ) < 2), le_div_iff₀ (by norm_num)]
        linarith
      have e2 : f64 (2 * b.2 j - y i j) = -y i j := by
        have : 2 * b.2 j - y i j = -y i j + 2 * b.2 j := by ring
        rw [this]
        refine f64_absorb hy0 (isDouble_neg (hdy y hy)) ?_
        rw [abs_neg, h3, abs_mul, abs_of_pos (by norm_num : (0 : ℚ) < 2), le_div_iff₀ (by norm_num)]
        linarith
      have hbb := hb.1 j
      have hor : y i j < b.1 j ∨ b.2 j < y i j := by
        by_contra hcon
        rw [not_or, not_lt, not_lt] at hcon
        have hle : |y i j| ≤ max |b.1 j| |b.2 j| := abs_le_max_abs_abs hcon.1 hcon.2
        have h4 : 2 ^ 56 * max |b.1 j| |b.2 j| ≤ |x i j| := by
          rcases max_choice |b.1 j| |b.2 j| with h | h <;> rw [h] <;> assumption
        rw [h3] at hle
        linarith
      unfold reflectPassR
      simp only [isLow, isHigh, decide_eq_true_eq, gt_iff_lt, f1, f2]
      rcases hor with h | h
      · have hn : ¬ b.2 j < y i j := by linarith
        rw [if_pos h, if_neg hn, e1]
      · have hn : ¬ y i j < b.1 j := by linarith
        rw [if_neg hn, if_pos h, e2]
    intro m
    induction m with
    | zero => intro y hy; unfold bhReflectiveR; rw [if_pos (hout y hy)]
    | succ m ih =>
      intro y hy
      rw [bhReflectiveR, if_pos (hout y hy)]
      apply ih
      rw [hpass y hy]
      rcases hy with h | h
      · right; rw [h]
      · left; rw [h, neg_neg]
  exact main passes x (Or.inl rfl)

/-- Non-vacuity: bounds [-5, 5] in two dimensions, three particles, one coordinate at -2^60. -/
example : DoubleBounds (d := 2) (fun _ => -5, fun _ => 5) ∧ IsDouble (-2 ^ 60) ∧
    2 ^ 56 * |(-5 : ℚ)| ≤ |-2 ^ 60| ∧ (2 : ℚ) ^ 56 * |5| ≤ |-2 ^ 60| ∧ (-2 ^ 60 : ℚ) ≠ 0 := by
  refine ⟨⟨fun _ => by norm_num, fun _ => ⟨⟨-5, 0, by norm_num, by norm_num, by norm_num⟩,
    ⟨5, 0, by norm_num, by norm_num, by norm_num⟩⟩⟩, ⟨-1, 60, by norm_num, by norm_num, by norm_num⟩,
    by norm_num [abs_of_neg], by norm_num, by norm_num⟩

/-! ### Near positions -/

/-- Doubles are multiples of the smallest positive one. -/
theorem isDouble_grid {x : ℚ} (hd : IsDouble x) : ∃ k : ℤ, x = k * 2 ^ (-1074 : ℤ) := by
  obtain ⟨m, q, hm, hq, rfl⟩ := hd
  refine ⟨m * 2 ^ (q + 1074).toNat, ?_⟩
  have : (2 : ℚ) ^ q = 2 ^ (q + 1074).toNat * 2 ^ (-1074 : ℤ) := by
    rw [← zpow_natCast, ← zpow_add₀ (by norm_num)]
    congr 1
    omega
  rw [this]
  push_cast
  ring

theorem double_gap {x y : ℚ} (hx : IsDouble x) (hy : IsDouble y) (h : x < y) :
    2 ^ (-1074 : ℤ) ≤ y - x := by
  obtain ⟨k, rfl⟩ := isDouble_grid hx
  obtain ⟨l, rfl⟩ := isDouble_grid hy
  have hpos := two_zpow_pos (-1074)
  have hkl : k < l := by
    by_contra hcon
    have : (l : ℚ) ≤ k := by exact_mod_cast not_lt.1 hcon
    have := mul_le_mul_of_nonneg_right this hpos.le
    linarith
  have h1 : (k : ℚ) + 1 ≤ l := by exact_mod_cast hkl
  have h2 : (1 : ℚ) * 2 ^ (-1074 : ℤ) ≤ ((l : ℚ) - k) * 2 ^ (-1074 : ℤ) :=
    mul_le_mul_of_nonneg_right (by linarith) hpos.le
  linarith

theorem f64pos_err {y : ℚ} (hy : 0 < y) :
    |f64pos y - y| ≤ y / 2 ^ 53 + 2 ^ (-1074 : ℤ) / 2 := by
  have hpos := two_zpow_pos (lastPlace y)
  have hnear := roundEven_near (y / 2 ^ lastPlace y)
  have hb : |f64pos y - y| ≤ 2 ^ lastPlace y / 2 := by
    have e : f64pos y - y = (roundEven (y / 2 ^ lastPlace y) - y / 2 ^ lastPlace y) *
        2 ^ lastPlace y := by
      unfold f64pos
      rw [sub_mul, div_mul_cancel₀ _ hpos.ne']
    rw [e, abs_mul, abs_of_pos hpos]
    have : |(roundEven (y / 2 ^ lastPlace y) : ℚ) - y / 2 ^ lastPlace y| ≤ 1 / 2 := by
      rw [abs_le]; constructor <;> linarith [hnear.1, hnear.2]
    have := mul_le_mul_of_nonneg_right this hpos.le
    linarith
  refine le_trans hb ?_
  have hmin := two_zpow_pos (-1074)
  by_cases h : -1074 < lastPlace y
  · have h1 := lastPlace_le hy h
    have h2 : (2 : ℚ) ^ (lastPlace y + 52) = 2 ^ lastPlace y * 2 ^ 52 := by
      rw [zpow_add₀ (by norm_num)]; rfl
    rw [h2] at h1
    have h3 : (2 : ℚ) ^ lastPlace y / 2 ≤ y / 2 ^ 53 := by
      rw [div_le_div_iff₀ (by norm_num) (by norm_num)]
      have : (2 : ℚ) ^ 53 = 2 ^ 52 * 2 := by norm_num
      rw [this]
      nlinarith
    linarith
  · have hge : (-1074 : ℤ) ≤ lastPlace y := le_max_right _ _
    have : lastPlace y = -1074 := by omega
    rw [this]
    have : 0 ≤ y / 2 ^ 53 := by positivity
    linarith

/-- The rounding error. -/
theorem f64_err (y : ℚ) : |f64 y - y| ≤ |y| / 2 ^ 53 + 2 ^ (-1074 : ℤ) / 2 := by
  have hmin := two_zpow_pos (-1074)
  rcases lt_trichotomy y 0 with h | h | h
  · unfold f64
    rw [if_pos h]
    have := f64pos_err (y := -y) (by linarith)
    rw [abs_of_neg h]
    have e : -f64pos (-y) - y = -(f64pos (-y) - -y) := by ring
    rw [e, abs_neg]
    exact this
  · subst h
    rw [f64_of_isDouble ⟨0, 0, by norm_num, by norm_num, by norm_num⟩]
    simp only [sub_self, abs_zero, zero_div, zero_add]
    linarith
  · unfold f64
    rw [if_neg (not_lt.2 h.le), abs_of_pos h]
    exact f64pos_err h

/-- **C67** (`reflective`).  In binary64 arithmetic, for bounds that are doubles, `reflective` does
return, with every coordinate inside, if no coordinate is further away than `2^51` times the width of its
dimension (less four times the larger bound). -/
theorem C67_reflective_near {n d : Nat} (b : Bounds d ℚ) (hb : DoubleBounds b) (x : Mat n d ℚ)
    (hx : ∀ i j, |x i j| + 4 * max |b.1 j| |b.2 j| ≤ 2 ^ 51 * (b.2 j - b.1 j)) :
    ∃ N y, InBox b y ∧ ∀ passes, N ≤ passes → bhReflectiveR f64 b passes x = .ok y := by
  have hgap : ∀ j, 2 ^ (-1074 : ℤ) ≤ b.2 j - b.1 j := fun j =>
    double_gap (hb.2 j).1 (hb.2 j).2 (hb.1 j)
  have f1 : ∀ j, f64 (2 * b.1 j) = 2 * b.1 j := fun j => by
    have := f64_two (b.1 j); rwa [f64_of_isDouble (hb.2 j).1] at this
  have f2 : ∀ j, f64 (2 * b.2 j) = 2 * b.2 j := fun j => by
    have := f64_two (b.2 j); rwa [f64_of_isDouble (hb.2 j).2] at this
  have main : ∀ (m : Nat) (x : Mat n d ℚ) (E : Mat n d ℚ),
      (∀ i j, 0 ≤ E i j ∧ b.1 j - x i j ≤ E i j ∧ x i j - b.2 j ≤ E i j ∧
        E i j + 3 * max |b.1 j| |b.2 j| ≤ 2 ^ 51 * (b.2 j - b.1 j) ∧
        E i j ≤ m * ((b.2 j - b.1 j) / 4)) →
      ∃ y, InBox b y ∧ ∀ passes, m ≤ passes → bhReflectiveR f64 b passes x = .ok y := by
    intro m
    induction m with
    | zero =>
      intro x E h
      have hin : InBox b x := by
        intro i j
        obtain ⟨h1, h2, h3, _, h5⟩ := h i j
        simp only [Nat.cast_zero, zero_mul] at h5
        constructor <;> linarith
      refine ⟨x, hin, fun passes _ => ?_⟩
      have ho : anyOut b x = false := (anyOut_false_iff b x).2 hin
      cases passes <;> simp [bhReflectiveR, ho]
    | succ m ih =>
      intro x E h
      by_cases hin : InBox b x
      · refine ⟨x, hin, fun passes _ => ?_⟩
        have ho : anyOut b x = false := (anyOut_false_iff b x).2 hin
        cases passes <;> simp [bhReflectiveR, ho]
      · have ho : anyOut b x = true := by
          rw [← Bool.not_eq_false, anyOut_false_iff]
          exact hin
        obtain ⟨y, hy, hp⟩ := ih (reflectPassR f64 b x)
          (fun i j => max 0 (E i j - (b.2 j - b.1 j) / 4)) (by
          intro i j
          obtain ⟨h1, h2, h3, h4, h5⟩ := h i j
          have hw := hb.1 j
          have hg := hgap j
          have hB1 : |b.1 j| ≤ max |b.1 j| |b.2 j| := le_max_left _ _
          have hB2 : |b.2 j| ≤ max |b.1 j| |b.2 j| := le_max_right _ _
          have a1 := abs_le.1 hB1
          have a2 := abs_le.1 hB2
          have hstep : ∀ c : ℚ, (c = b.1 j ∨ c = b.2 j) →
              |f64 (2 * c - x i j) - (2 * c - x i j)| ≤ 3 * ((b.2 j - b.1 j) / 4) := by
            intro c hc
            refine le_trans (f64_err _) ?_
            have hab : |2 * c - x i j| ≤ 2 ^ 51 * (b.2 j - b.1 j) := by
              rw [abs_le]
              rcases hc with rfl | rfl <;> constructor <;> linarith [a1.1, a1.2, a2.1, a2.2]
            have : |2 * c - x i j| / 2 ^ 53 ≤ (b.2 j - b.1 j) / 4 := by
              rw [div_le_div_iff₀ (by norm_num) (by norm_num)]
              norm_num at hab ⊢
              linarith
            linarith
          refine ⟨le_max_left _ _, ?_, ?_, ?_, ?_⟩
          · unfold reflectPassR
            simp only [isLow, isHigh, decide_eq_true_eq, gt_iff_lt, f1, f2]
            by_cases hlo : x i j < b.1 j
            · have hhi : ¬ b.2 j < x i j := by linarith
              rw [if_pos hlo, if_neg hhi]
              have : b.1 j ≤ f64 (2 * b.1 j - x i j) :=
                le_fl_of_le (f64_of_isDouble (hb.2 j).1) (by linarith)
              exact le_trans (by linarith) (le_max_left _ _)
            · rw [if_neg hlo]
              by_cases hhi : b.2 j < x i j
              · rw [if_pos hhi]
                have := abs_le.1 (hstep (b.2 j) (Or.inr rfl))
                exact le_trans (by linarith [this.1]) (le_max_right _ _)
              · rw [if_neg hhi]
                exact le_trans (by linarith) (le_max_left _ _)
          · unfold reflectPassR
            simp only [isLow, isHigh, decide_eq_true_eq, gt_iff_lt, f1, f2]
            by_cases hlo : x i j < b.1 j
            · have hhi : ¬ b.2 j < x i j := by linarith
              rw [if_pos hlo, if_neg hhi]
              have := abs_le.1 (hstep (b.1 j) (Or.inl rfl))
              exact le_trans (by linarith [this.2]) (le_max_right _ _)
            · rw [if_neg hlo]
              by_cases hhi : b.2 j < x i j
              · rw [if_pos hhi]
                have : f64 (2 * b.2 j - x i j) ≤ b.2 j :=
                  fl_le_of_le (f64_of_isDouble (hb.2 j).2) (by linarith)
                exact le_trans (by linarith) (le_max_left _ _)
              · rw [if_neg hhi]
                exact le_trans (by linarith) (le_max_left _ _)
          · have : max 0 (E i j - (b.2 j - b.1 j) / 4) ≤ E i j := max_le h1 (by linarith)
            linarith
          · push_cast at h5
            refine max_le ?_ (by linarith)
            have : (0 : ℚ) ≤ m := Nat.cast_nonneg m
            have h6 : 0 ≤ (b.2 j - b.1 j) / 4 := by linarith
            exact mul_nonneg this h6)
        refine ⟨y, hy, fun passes hpass => ?_⟩
        obtain ⟨q, rfl⟩ : ∃ q, passes = q + 1 := ⟨passes - 1, by omega⟩
        rw [bhReflectiveR, if_pos ho]
        exact hp q (by omega)
  -- every coordinate needs finitely many passes
  have hE : ∀ i j, ∃ m : Nat, |x i j| + max |b.1 j| |b.2 j| ≤ m * ((b.2 j - b.1 j) / 4) := by
    intro i j
    have hw : 0 < (b.2 j - b.1 j) / 4 := by linarith [hb.1 j]
    obtain ⟨m, hm⟩ := exists_nat_ge ((|x i j| + max |b.1 j| |b.2 j|) / ((b.2 j - b.1 j) / 4))
    exact ⟨m, by rwa [div_le_iff₀ hw] at hm⟩
  choose M hM using hE
  obtain ⟨N, hN⟩ : ∃ N : Nat, ∀ i j, M i j ≤ N := by
    refine ⟨Finset.univ.sup fun i => Finset.univ.sup fun j => M i j, fun i j => ?_⟩
    exact le_trans (Finset.le_sup (f := fun j => M i j) (Finset.mem_univ j))
      (Finset.le_sup (f := fun i => Finset.univ.sup fun j => M i j) (Finset.mem_univ i))
  obtain ⟨y, hy, hp⟩ := main N x (fun i j => |x i j| + max |b.1 j| |b.2 j|) (by
    intro i j
    have hB1 : |b.1 j| ≤ max |b.1 j| |b.2 j| := le_max_left _ _
    have hB2 : |b.2 j| ≤ max |b.1 j| |b.2 j| := le_max_right _ _
    have a1 := abs_le.1 hB1
    have a2 := abs_le.1 hB2
    have a3 := abs_nonneg (x i j)
    have a4 := neg_abs_le (x i j)
    have a5 := le_abs_self (x i j)
    refine ⟨by linarith [abs_nonneg (b.1 j)], by linarith [a1.2], by linarith [a2.1],
      by linarith [hx i j], ?_⟩
    refine le_trans (hM i j) (mul_le_mul_of_nonneg_right ?_ (by linarith [hb.1 j]))
    exact_mod_cast hN i j)
  exact ⟨N, y, hy, hp⟩

/-- Non-vacuity: with bounds [-5, 5] every position up to 10^15 comes back. -/
example (x : Mat 3 2 ℚ) (hx : ∀ i j, |x i j| ≤ 10 ^ 15) :
    ∀ i j, |x i j| + 4 * max |(-5 : ℚ)| |5| ≤ 2 ^ 51 * (5 - -5) := by
  intro i j
  have := hx i j
  have h5 : max |(-5 : ℚ)| |5| = 5 := by norm_num
  rw [h5]
  norm_num at this ⊢
  linarith

end PySwarms
