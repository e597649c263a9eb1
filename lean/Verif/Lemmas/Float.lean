import Verif.Model.Float
import Verif.Model.Handlers
import Mathlib.Tactic.Linarith
import Mathlib.Tactic.Positivity
import Mathlib.Tactic.FieldSimp
import Mathlib.Tactic.Ring
import Mathlib.Tactic.NormNum

/-! Binary64 rounding is monotone, idempotent, … -/

namespace PySwarms

theorem roundEven_floor (y : ℚ) : ⌊y⌋ ≤ roundEven y ∧ roundEven y ≤ ⌊y⌋ + 1 := by
  unfold roundEven
  split_ifs <;> omega

theorem roundEven_mono {y z : ℚ} (h : y ≤ z) : roundEven y ≤ roundEven z := by
  rcases lt_or_eq_of_le (Int.floor_le_floor h) with hl | he
  · have h1 := (roundEven_floor y).2
    have h2 := (roundEven_floor z).1
    omega
  · unfold roundEven
    rw [he]
    split_ifs <;> first | omega | (exfalso; linarith)

theorem roundEven_int (m : ℤ) : roundEven (m : ℚ) = m := by
  unfold roundEven
  simp

theorem roundEven_near (y : ℚ) : (roundEven y : ℚ) ≤ y + 1 / 2 ∧ y - 1 / 2 ≤ roundEven y := by
  have h1 := Int.floor_le y
  have h2 := Int.lt_floor_add_one y
  unfold roundEven
  split_ifs
  all_goals
    push_cast
    constructor <;> linarith

theorem two_zpow_pos (e : ℤ) : (0 : ℚ) < 2 ^ e := zpow_pos (by norm_num) e

theorem two_zpow_le {a b : ℤ} (h : a ≤ b) : (2 : ℚ) ^ a ≤ 2 ^ b :=
  zpow_le_zpow_right₀ (by norm_num) h

theorem lastPlace_lt (x : ℚ) : x < 2 ^ (lastPlace x + 53) := by
  have h := Int.lt_zpow_succ_log_self (b := 2) (by norm_num) x
  push_cast at h
  refine lt_of_lt_of_le h (two_zpow_le ?_)
  have : Int.log 2 x - 52 ≤ lastPlace x := le_max_left _ _
  omega

theorem lastPlace_le {x : ℚ} (hx : 0 < x) (h : -1074 < lastPlace x) :
    2 ^ (lastPlace x + 52) ≤ x := by
  have he : lastPlace x = Int.log 2 x - 52 := by
    unfold lastPlace at h ⊢
    rcases le_total (Int.log 2 x - 52) (-1074) with h' | h'
    · rw [max_eq_right h'] at h; omega
    · rw [max_eq_left h']
  have := Int.zpow_log_le_self (b := 2) (by norm_num) hx
  push_cast at this
  rw [he]
  simpa using this

theorem lastPlace_mono {x y : ℚ} (hx : 0 < x) (h : x ≤ y) : lastPlace x ≤ lastPlace y := by
  have := Int.log_mono_right (b := 2) hx h
  unfold lastPlace
  omega

theorem f64pos_nonneg {x : ℚ} (hx : 0 ≤ x) : 0 ≤ f64pos x := by
  unfold f64pos
  apply mul_nonneg _ (two_zpow_pos _).le
  have : (0 : ℤ) ≤ ⌊x / 2 ^ lastPlace x⌋ := Int.floor_nonneg.2 (div_nonneg hx (two_zpow_pos _).le)
  exact_mod_cast le_trans this (roundEven_floor _).1

theorem f64pos_zero : f64pos 0 = 0 := by
  unfold f64pos
  rw [zero_div]
  have := roundEven_int 0
  push_cast at this
  rw [this]
  simp

theorem f64pos_le_pow {x : ℚ} : f64pos x ≤ 2 ^ (lastPlace x + 53) := by
  have h := lastPlace_lt x
  have hp := two_zpow_pos (lastPlace x)
  unfold f64pos
  rw [zpow_add₀ (by norm_num), mul_comm (2 ^ lastPlace x : ℚ)] at h ⊢
  apply mul_le_mul_of_nonneg_right _ hp.le
  have h1 : x / 2 ^ lastPlace x ≤ ((2 ^ 53 : ℤ) : ℚ) := by
    rw [div_le_iff₀ hp]
    exact_mod_cast h.le
  have h2 := roundEven_mono h1
  rw [roundEven_int] at h2
  exact_mod_cast h2

theorem f64pos_ge_pow {x : ℚ} (hx : 0 < x) (h : -1074 < lastPlace x) :
    2 ^ (lastPlace x + 52) ≤ f64pos x := by
  have h := lastPlace_le hx h
  have hp := two_zpow_pos (lastPlace x)
  unfold f64pos
  rw [zpow_add₀ (by norm_num), mul_comm (2 ^ lastPlace x : ℚ)] at h ⊢
  apply mul_le_mul_of_nonneg_right _ hp.le
  have h1 : ((2 ^ 52 : ℤ) : ℚ) ≤ x / 2 ^ lastPlace x := by
    rw [le_div_iff₀ hp]
    exact_mod_cast h
  have h2 := roundEven_mono h1
  rw [roundEven_int] at h2
  exact_mod_cast h2

theorem f64pos_mono {x y : ℚ} (hx : 0 ≤ x) (h : x ≤ y) : f64pos x ≤ f64pos y := by
  rcases hx.eq_or_lt with rfl | hx
  · rw [f64pos_zero]; exact f64pos_nonneg h
  rcases (lastPlace_mono hx h).eq_or_lt with he | hl
  · unfold f64pos
    rw [he]
    apply mul_le_mul_of_nonneg_right _ (two_zpow_pos _).le
    exact_mod_cast roundEven_mono (div_le_div_of_nonneg_right h (two_zpow_pos _).le)
  · have h0 : -1074 ≤ lastPlace x := le_max_right _ _
    calc f64pos x ≤ 2 ^ (lastPlace x + 53) := f64pos_le_pow
      _ ≤ 2 ^ (lastPlace y + 52) := two_zpow_le (by omega)
      _ ≤ f64pos y := f64pos_ge_pow (lt_of_lt_of_le hx h) (by omega)

theorem f64_neg (x : ℚ) : f64 (-x) = -f64 x := by
  unfold f64
  rcases lt_trichotomy x 0 with h | rfl | h
  · rw [if_neg (by linarith), if_pos h, neg_neg]
  · simp [f64pos_zero]
  · rw [if_pos (by linarith), if_neg (by linarith), neg_neg]

theorem f64_nonneg {x : ℚ} (hx : 0 ≤ x) : 0 ≤ f64 x := by
  unfold f64
  rw [if_neg (by linarith)]
  exact f64pos_nonneg hx

theorem f64_mono : Monotone f64 := by
  intro x y h
  unfold f64
  split_ifs with h1 h2 h2
  · have := f64pos_mono (x := -y) (y := -x) (by linarith) (by linarith)
    linarith
  · have := f64pos_nonneg (x := -x) (by linarith)
    have := f64pos_nonneg (x := y) (by linarith)
    linarith
  · linarith
  · exact f64pos_mono (by linarith) h

theorem f64_of_isDouble {x : ℚ} (hx : IsDouble x) : f64 x = x := by
  have main : ∀ x : ℚ, 0 < x → IsDouble x → f64pos x = x := by
    rintro x h0 ⟨m, e, hm, he, rfl⟩
    have hm0 : 0 < m := by
      have := pos_of_mul_pos_left h0 (two_zpow_pos e).le
      exact_mod_cast this
    rw [abs_of_pos hm0] at hm
    -- the last place of `x` is at most `e`, unless `m = 2^53`, when it is at most `e + 1`
    have hl : ∃ k : ℤ, (m : ℚ) * 2 ^ e / 2 ^ lastPlace ((m : ℚ) * 2 ^ e) = k := by
      rcases hm.eq_or_lt with rfl | hm
      · by_cases h1 : -1074 < lastPlace (((2 ^ 53 : ℤ) : ℚ) * 2 ^ e)
        · have h2 := lastPlace_le h0 h1
          have h3 : ((2 ^ 53 : ℤ) : ℚ) * 2 ^ e = 2 ^ (e + 53) := by
            rw [zpow_add₀ (by norm_num)]; push_cast; ring
          have h4 : lastPlace (((2 ^ 53 : ℤ) : ℚ) * 2 ^ e) + 52 ≤ e + 53 := by
            rw [h3] at h2 ⊢
            exact (zpow_le_zpow_iff_right₀ (by norm_num)).1 h2
          generalize lastPlace (((2 ^ 53 : ℤ) : ℚ) * 2 ^ e) = l at *
          refine ⟨2 ^ (e + 53 - l).toNat, ?_⟩
          rw [h3, ← zpow_sub₀ (by norm_num)]
          push_cast
          rw [← zpow_natCast]
          congr 1
          omega
        · have h1 : lastPlace (((2 ^ 53 : ℤ) : ℚ) * 2 ^ e) ≤ e := by omega
          generalize lastPlace (((2 ^ 53 : ℤ) : ℚ) * 2 ^ e) = l at *
          refine ⟨2 ^ 53 * 2 ^ (e - l).toNat, ?_⟩
          rw [mul_div_assoc, ← zpow_sub₀ (by norm_num)]
          push_cast
          rw [← zpow_natCast (2 : ℚ) (e - l).toNat]
          congr 2
          omega
      · have h1 : lastPlace ((m : ℚ) * 2 ^ e) ≤ e := by
          by_cases h1 : -1074 < lastPlace ((m : ℚ) * 2 ^ e)
          · have h2 := lastPlace_le h0 h1
            have h3 : (m : ℚ) * 2 ^ e < 2 ^ (e + 53) := by
              rw [zpow_add₀ (by norm_num), mul_comm]
              apply mul_lt_mul_of_pos_left _ (two_zpow_pos e)
              exact_mod_cast hm
            have h4 := (zpow_lt_zpow_iff_right₀ (by norm_num : (1 : ℚ) < 2)).1 (lt_of_le_of_lt h2 h3)
            omega
          · omega
        generalize lastPlace ((m : ℚ) * 2 ^ e) = l at *
        refine ⟨m * 2 ^ (e - l).toNat, ?_⟩
        rw [mul_div_assoc, ← zpow_sub₀ (by norm_num)]
        push_cast
        rw [← zpow_natCast (2 : ℚ) (e - l).toNat]
        congr 2
        omega
    obtain ⟨k, hk⟩ := hl
    unfold f64pos
    rw [hk, roundEven_int, ← hk, div_mul_cancel₀ _ (two_zpow_pos _).ne']
  unfold f64
  split_ifs with h
  · rw [main (-x) (by linarith), neg_neg]
    obtain ⟨m, e, hm, he, rfl⟩ := hx
    exact ⟨-m, e, by rwa [abs_neg], he, by push_cast; ring⟩
  · rcases eq_or_lt_of_le (not_lt.1 h) with rfl | h
    · exact f64pos_zero
    · exact main x h hx

theorem isDouble_f64pos {x : ℚ} (hx : 0 ≤ x) : IsDouble (f64pos x) := by
  refine ⟨roundEven (x / 2 ^ lastPlace x), lastPlace x, ?_, le_max_right _ _, rfl⟩
  have h1 : 0 ≤ roundEven (x / 2 ^ lastPlace x) := by
    have : (0 : ℤ) ≤ ⌊x / 2 ^ lastPlace x⌋ :=
      Int.floor_nonneg.2 (div_nonneg hx (two_zpow_pos _).le)
    exact le_trans this (roundEven_floor _).1
  rw [abs_of_nonneg h1]
  have h2 := f64pos_le_pow (x := x)
  unfold f64pos at h2
  rw [zpow_add₀ (by norm_num), mul_comm (2 ^ lastPlace x : ℚ)] at h2
  have h3 := le_of_mul_le_mul_right h2 (two_zpow_pos _)
  exact_mod_cast h3

theorem isDouble_f64 (x : ℚ) : IsDouble (f64 x) := by
  unfold f64
  split_ifs with h
  · obtain ⟨m, e, hm, he, h⟩ := isDouble_f64pos (x := -x) (by linarith)
    exact ⟨-m, e, by rwa [abs_neg], he, by rw [h]; push_cast; ring⟩
  · exact isDouble_f64pos (by linarith)

theorem f64_eq_iff (x : ℚ) : f64 x = x ↔ IsDouble x :=
  ⟨fun h => h ▸ isDouble_f64 x, f64_of_isDouble⟩

theorem f64_idem (x : ℚ) : f64 (f64 x) = f64 x := f64_of_isDouble (isDouble_f64 x)

theorem f64_two (x : ℚ) : f64 (2 * f64 x) = 2 * f64 x := by
  apply f64_of_isDouble
  obtain ⟨m, e, hm, he, h⟩ := isDouble_f64 x
  refine ⟨m, e + 1, hm, by omega, ?_⟩
  rw [h, zpow_add₀ (by norm_num)]
  ring

theorem npMod_bounds {a s : ℚ} (ha : 0 ≤ a) (hs : 0 < s) :
    0 ≤ npMod a s ∧ npMod a s < s ∧ npMod a s ≤ a := by
  have h1 := Int.floor_le (a / s)
  have h2 := Int.lt_floor_add_one (a / s)
  have h3 : 0 ≤ ⌊a / s⌋ := Int.floor_nonneg.2 (div_nonneg ha hs.le)
  have h3' : (0 : ℚ) ≤ ⌊a / s⌋ := by exact_mod_cast h3
  rw [le_div_iff₀ hs] at h1
  rw [div_lt_iff₀ hs] at h2
  unfold npMod
  refine ⟨by linarith, by linarith, ?_⟩
  have := mul_nonneg hs.le h3'
  linarith

/-- The floating-point remainder is exact. -/
theorem f64_mod {a s : ℚ} (ha : 0 ≤ f64 a) (hs : 0 < f64 s) :
    f64 (npMod (f64 a) (f64 s)) = npMod (f64 a) (f64 s) := by
  apply f64_of_isDouble
  obtain ⟨h1, h2, h3⟩ := npMod_bounds ha hs
  obtain ⟨m, e, hm, he, hma⟩ := isDouble_f64 a
  obtain ⟨k, g, hk, hg, hks⟩ := isDouble_f64 s
  have key : ∀ (z c : ℤ) (f : ℤ), |c| ≤ 2 ^ 53 → -1074 ≤ f → (0 : ℚ) ≤ z * 2 ^ f →
      (z : ℚ) * 2 ^ f ≤ c * 2 ^ f → IsDouble (z * 2 ^ f) := by
    intro z c f hc hf hz hzc
    have h4 : (0 : ℚ) ≤ z := nonneg_of_mul_nonneg_left hz (two_zpow_pos f)
    have h5 := le_of_mul_le_mul_right hzc (two_zpow_pos f)
    have h4 : 0 ≤ z := by exact_mod_cast h4
    have h5 : z ≤ c := by exact_mod_cast h5
    refine ⟨z, f, ?_, hf, rfl⟩
    rw [abs_of_nonneg h4]
    rw [abs_le] at hc
    omega
  rcases le_total e g with h | h
  · have hk' : f64 s = ((k * 2 ^ (g - e).toNat : ℤ) : ℚ) * 2 ^ e := by
      rw [hks]; push_cast
      rw [mul_assoc, ← zpow_natCast (2 : ℚ) (g - e).toNat, ← zpow_add₀ (by norm_num)]
      congr 2
      omega
    have hz : npMod (f64 a) (f64 s) =
        ((m - k * 2 ^ (g - e).toNat * ⌊f64 a / f64 s⌋ : ℤ) : ℚ) * 2 ^ e := by
      unfold npMod
      generalize ⌊f64 a / f64 s⌋ = q
      rw [hma, hk']
      push_cast
      ring
    rw [hz] at h1 h3 ⊢
    exact key _ m e hm he h1 (le_trans h3 hma.le)
  · have hm' : f64 a = ((m * 2 ^ (e - g).toNat : ℤ) : ℚ) * 2 ^ g := by
      rw [hma]; push_cast
      rw [mul_assoc, ← zpow_natCast (2 : ℚ) (e - g).toNat, ← zpow_add₀ (by norm_num)]
      congr 2
      omega
    have hz : npMod (f64 a) (f64 s) =
        ((m * 2 ^ (e - g).toNat - k * ⌊f64 a / f64 s⌋ : ℤ) : ℚ) * 2 ^ g := by
      unfold npMod
      generalize ⌊f64 a / f64 s⌋ = q
      rw [hm', hks]
      push_cast
      ring
    rw [hz] at h1 h2 ⊢
    exact key _ k g hk hg h1 (le_trans h2.le hks.le)

theorem f64_near {x : ℚ} (hx : 0 ≤ x) : f64 x ≤ x + 2 ^ lastPlace x / 2 := by
  unfold f64
  rw [if_neg (by linarith)]
  unfold f64pos
  have hp := two_zpow_pos (lastPlace x)
  have := (roundEven_near (x / 2 ^ lastPlace x)).1
  have := mul_le_mul_of_nonneg_right this hp.le
  rw [add_mul, div_mul_cancel₀ _ hp.ne'] at this
  linarith

/-- A double below the rounded value of `z` is below `z`. -/
theorem lt_of_lt_f64 {t z : ℚ} (ht : f64 t = t) (h : t < f64 z) : t < z := by
  by_contra hc
  have := f64_mono (not_lt.1 hc)
  rw [ht] at this
  linarith

/-- Scaling the rounded width of an interval with double ends by a random sample never exceeds the
width. -/
theorem f64_sample {lb ub u : ℚ} (hlt : lb < ub) (hl : f64 lb = lb) (hu : f64 ub = ub)
    (hs : IsSample u) : f64 (f64 (ub - lb) * u) ≤ ub - lb := by
  obtain ⟨k, hk, rfl⟩ := hs
  have hw : 0 ≤ ub - lb := by linarith
  have hD0 : 0 ≤ f64 (ub - lb) := f64_nonneg hw
  have hu1 : (k : ℚ) / 2 ^ 53 ≤ 1 - 1 / 2 ^ 53 := by
    have : (k : ℚ) + 1 ≤ 2 ^ 53 := by exact_mod_cast hk
    rw [div_le_iff₀ (by norm_num), sub_mul, div_mul_cancel₀ _ (by norm_num)]
    linarith
  have hu0 : (0 : ℚ) ≤ (k : ℚ) / 2 ^ 53 := by positivity
  generalize (k : ℚ) / 2 ^ 53 = u at hu1 hu0
  have hle : f64 (f64 (ub - lb) * u) ≤ f64 (ub - lb) := by
    have h1 : f64 (ub - lb) * u ≤ f64 (ub - lb) := by
      have : u ≤ 1 := by
        have : (0 : ℚ) < 1 / 2 ^ 53 := by norm_num
        linarith
      exact mul_le_of_le_one_right hD0 this
    have := f64_mono h1
    rwa [f64_idem] at this
  rcases hle.lt_or_eq with hlt' | heq
  · exact (lt_of_lt_f64 (f64_idem _) hlt').le
  rw [heq]
  -- now the product rounds up to the rounded width, which can only happen for subnormal widths
  rcases hD0.eq_or_lt with h0 | hD
  · rw [← h0]; exact hw
  have hDu0 : 0 ≤ f64 (ub - lb) * u := mul_nonneg hD0 hu0
  have hDu : 0 < f64 (ub - lb) * u := by
    rcases hDu0.eq_or_lt with h | h
    · rw [← h] at heq
      rw [show f64 0 = 0 from by simp [f64, f64pos_zero]] at heq
      linarith
    · exact h
  have hn := f64_near hDu0
  rw [heq] at hn
  have h1 : f64 (ub - lb) * (1 / 2 ^ 53) ≤ 2 ^ lastPlace (f64 (ub - lb) * u) / 2 := by
    have := mul_le_mul_of_nonneg_left hu1 hD0
    linarith
  have h2 : f64 (ub - lb) ≤ 2 ^ (lastPlace (f64 (ub - lb) * u) + 52) := by
    rw [zpow_add₀ (by norm_num)]
    have h3 : (2 : ℚ) ^ (52 : ℤ) = 2 ^ 53 / 2 := by norm_num
    rw [h3]
    generalize (2 : ℚ) ^ lastPlace (f64 (ub - lb) * u) = P at *
    have : f64 (ub - lb) * (1 / 2 ^ 53) * 2 ^ 53 ≤ P / 2 * 2 ^ 53 :=
      mul_le_mul_of_nonneg_right h1 (by norm_num)
    rw [mul_assoc, one_div, inv_mul_cancel₀ (by norm_num), mul_one] at this
    linarith
  have h3 : lastPlace (f64 (ub - lb) * u) = -1074 := by
    by_contra hne
    have h4 : -1074 < lastPlace (f64 (ub - lb) * u) := lt_of_le_of_ne (le_max_right _ _) (Ne.symm hne)
    have h5 := lastPlace_le hDu h4
    have h6 : f64 (ub - lb) * u < f64 (ub - lb) := by
      have : u < 1 := by
        have : (0 : ℚ) < 1 / 2 ^ 53 := by norm_num
        linarith
      exact mul_lt_of_lt_one_right hD this
    linarith
  rw [h3] at h2
  -- the exact width is a multiple of `2^-1074`
  have hmul : ∀ x : ℚ, f64 x = x → ∃ m : ℤ, x = m * 2 ^ (-1074 : ℤ) := by
    intro x hx
    rw [f64_eq_iff] at hx
    obtain ⟨m, e, -, he, rfl⟩ := hx
    refine ⟨m * 2 ^ (e + 1074).toNat, ?_⟩
    push_cast
    rw [mul_assoc, ← zpow_natCast (2 : ℚ) (e + 1074).toNat, ← zpow_add₀ (by norm_num)]
    congr 2
    omega
  obtain ⟨a, ha⟩ := hmul lb hl
  obtain ⟨c, hc⟩ := hmul ub hu
  have hz : ub - lb = ((c - a : ℤ) : ℚ) * 2 ^ (-1074 : ℤ) := by
    rw [ha, hc]; push_cast; ring
  by_cases hbig : c - a ≤ 2 ^ 53
  · have hca : 0 ≤ c - a := by
      rw [hz] at hw
      exact_mod_cast nonneg_of_mul_nonneg_left hw (two_zpow_pos _)
    have : f64 (ub - lb) = ub - lb :=
      f64_of_isDouble ⟨c - a, -1074, by rw [abs_of_nonneg hca]; exact hbig, le_rfl, hz⟩
    exact this.le
  · exfalso
    have h5 : (2 : ℚ) ^ (-1021 : ℤ) ≤ ub - lb := by
      rw [hz]
      have : ((2 ^ 53 : ℤ) : ℚ) ≤ ((c - a : ℤ) : ℚ) := by exact_mod_cast (by omega : (2 ^ 53 : ℤ) ≤ c - a)
      have := mul_le_mul_of_nonneg_right this (two_zpow_pos (-1074)).le
      refine le_trans (le_of_eq ?_) this
      have e1 : ((2 ^ 53 : ℤ) : ℚ) = (2 : ℚ) ^ (53 : ℤ) := by norm_num
      rw [e1, ← zpow_add₀ (by norm_num)]
      congr 1
    have h6 := f64_mono h5
    rw [f64_of_isDouble (x := (2 : ℚ) ^ (-1021 : ℤ)) ⟨1, -1021, by norm_num, by norm_num, by simp⟩] at h6
    have h7 : (2 : ℚ) ^ ((-1074 : ℤ) + 52) < 2 ^ (-1021 : ℤ) :=
      (zpow_lt_zpow_iff_right₀ (by norm_num)).2 (by norm_num)
    linarith

end PySwarms
