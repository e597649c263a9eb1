import Verif.Model.RoundedOptions
import Verif.Model.RealOps
import Verif.Props.Options
import Verif.Props.ReflectiveFar
import Verif.Props.Rounding

/-!
# C106: the option strategies in binary64 arithmetic
-/

set_option linter.unusedSectionVars false

namespace PySwarms

/-! ## The rounded handler contains the exact one -/

theorem startEndR_id {K : Type} [Field K] [LinearOrder K] [Transc K] (start : Opts K) (opt : String)
    (kw : OHKw K) : startEndR id start opt kw = startEnd start opt kw := rfl

theorem ohStrategyR_exact (name : String) (start : Opts ℝ) (opt : String) (kw : OHKw ℝ) (u : ℝ) :
    ohStrategyR id ⟨Transc.exp, Transc.pow⟩ name start opt kw u = ohStrategy name start opt kw u := by
  have hn : ohNonlinModR id ⟨Transc.exp, Transc.pow⟩ start opt kw = ohNonlinMod start opt kw := by
    unfold ohNonlinModR ohNonlinMod
    simp only [startEndR_id, id]
    rcases startEnd start opt kw with er | ⟨s, e⟩
    · rfl
    · dsimp only
      rcases kw.iternow with _ | i
      · rfl
      · rcases kw.itermax with _ | m
        · rfl
        · dsimp only
          by_cases h : m - i < 0 ∨ m < 0
          · rw [if_pos h, if_pos h]
          · rw [if_neg h, if_neg h]
            push Not at h
            have : (Transc.pow m (kw.n.getD (6 / 5)) : ℝ) = 0 ↔ (m = 0 ∧ kw.n.getD (6 / 5) ≠ 0) :=
              Real.rpow_eq_zero_iff_of_nonneg h.2
            simp only [this]
  unfold ohStrategyR ohStrategy
  rw [hn]
  rfl

theorem ohCallR_exact (strategy : List (String × String)) (start : Opts ℝ) (kw : OHKw ℝ)
    (u : String → ℝ) :
    ohCallR id ⟨Transc.exp, Transc.pow⟩ strategy start kw u = ohCall strategy start kw u := by
  have h : ∀ l, ohLoopR id ⟨Transc.exp, Transc.pow⟩ strategy start kw u l =
      ohLoop strategy start kw u l := by
    intro l
    induction l with
    | nil => rfl
    | cons a l ih =>
      obtain ⟨o, v⟩ := a
      rw [ohLoopR, ohLoop, ih]
      cases strategy.lookup o with
      | none => rfl
      | some name => dsimp only; rw [ohStrategyR_exact]; rfl
  unfold ohCallR ohCall
  rw [h]

/-! ## End values -/

/-- The end value of an option on the machine: the user's `end_opts[opt]` if given, else the default,
computed from the doubles nearest to 0.4 and 0.8. -/
inductive IsEnd64 (c1 c2 : ℚ) (kw : OHKw ℚ) : String → ℚ → Prop
  | given (opt : String) (eo : Opts ℚ) (e : ℚ) (h : kw.endOpts = some eo)
      (h' : eo.lookup opt = some e) (he : IsDouble e) : IsEnd64 c1 c2 kw opt e
  | w (h : ∀ eo, kw.endOpts = some eo → eo.lookup "w" = none) : IsEnd64 c1 c2 kw "w" (f64 (2 / 5))
  | c1 (h : ∀ eo, kw.endOpts = some eo → eo.lookup "c1" = none) :
      IsEnd64 c1 c2 kw "c1" (f64 (f64 (4 / 5) * c1))
  | c2 (h : ∀ eo, kw.endOpts = some eo → eo.lookup "c2" = none) (hc : IsDouble c2) :
      IsEnd64 c1 c2 kw "c2" c2

theorem isEnd64_double {c1 c2 : ℚ} {kw : OHKw ℚ} {opt : String} {e : ℚ} (h : IsEnd64 c1 c2 kw opt e) :
    IsDouble e := by
  cases h with
  | given _ _ _ _ _ he => exact he
  | w => exact isDouble_f64 _
  | c1 => exact isDouble_f64 _
  | c2 _ hc => exact hc

theorem isEnd64_kw {c1 c2 : ℚ} {kw : OHKw ℚ} {opt : String} {e : ℚ} (h : IsEnd64 c1 c2 kw opt e)
    (a b : Option ℚ) : IsEnd64 c1 c2 { kw with iternow := a, itermax := b } opt e := by
  cases h with
  | given _ eo _ h h' he => exact .given _ eo _ h h' he
  | w h => exact .w h
  | c1 h => exact .c1 h
  | c2 h hc => exact .c2 h hc

theorem startEndR_isEnd {start : Opts ℚ} {c1 c2 s e : ℚ} {opt : String} {kw : OHKw ℚ}
    (h1 : start.lookup "c1" = some c1) (h2 : start.lookup "c2" = some c2)
    (hs : start.lookup opt = some s) (he : IsEnd64 c1 c2 kw opt e) :
    startEndR f64 start opt kw = .ok (s, e) := by
  unfold startEndR
  rw [h1, h2]
  simp only [hs]
  cases he with
  | given _ eo _ h h' => simp [h, h']
  | w h =>
    rcases hk : kw.endOpts with _ | eo
    · simp [List.lookup]
    · simp [h eo hk, List.lookup]
  | c1 h =>
    rcases hk : kw.endOpts with _ | eo
    · simp [List.lookup]
    · simp [h eo hk, List.lookup]
  | c2 h hc =>
    rcases hk : kw.endOpts with _ | eo
    · simp [List.lookup, f64_of_isDouble hc]
    · simp [h eo hk, List.lookup, f64_of_isDouble hc]

theorem f64_zero : f64 0 = 0 :=
  f64_of_isDouble ⟨0, 0, by norm_num, by norm_num, by norm_num⟩

theorem f64_one : f64 1 = 1 :=
  f64_of_isDouble ⟨1, 0, by norm_num, by norm_num, by norm_num⟩

theorem f64_nat {k : ℕ} (h : k ≤ 2 ^ 53) : f64 k = k :=
  f64_of_isDouble ⟨k, 0, by rw [abs_of_nonneg (by positivity)]; exact_mod_cast h, by norm_num, by simp⟩

theorem f64_le_zero {x : ℚ} (h : x ≤ 0) : f64 x ≤ 0 := by
  have := f64_mono h
  rwa [f64_zero] at this

/-! ## lin_variation -/

/-- The machine's `end + (start - end) * (itermax - iternow) / itermax`. -/
def linVal (s e i m : ℚ) : ℚ := f64 (e + f64 (f64 (f64 (s - e) * f64 (m - i)) / f64 m))

theorem linVariationR_eq {start : Opts ℚ} {c1 c2 s e : ℚ} {opt : String} {kw : OHKw ℚ}
    (h1 : start.lookup "c1" = some c1) (h2 : start.lookup "c2" = some c2)
    (hs : start.lookup opt = some s) (he : IsEnd64 c1 c2 kw opt e) {i m : ℚ} (hm : m ≠ 0) :
    ohLinVariationR f64 start opt { kw with iternow := some i, itermax := some m } =
      .ok (linVal s e i m) := by
  unfold ohLinVariationR
  rw [startEndR_isEnd h1 h2 hs (isEnd64_kw he _ _)]
  simp [hm, linVal]

theorem linVal_mono {s e i i' m : ℚ} (hm : 0 < m) (h : i ≤ i') :
    (e ≤ s → linVal s e i' m ≤ linVal s e i m) ∧ (s ≤ e → linVal s e i m ≤ linVal s e i' m) := by
  have hk : f64 (m - i') ≤ f64 (m - i) := f64_mono (by linarith)
  have hm' : 0 ≤ f64 m := f64_nonneg hm.le
  constructor
  · intro hse
    have hD : 0 ≤ f64 (s - e) := f64_nonneg (by linarith)
    have h1 := f64_mono (mul_le_mul_of_nonneg_left hk hD)
    have h2 := f64_mono (div_le_div_of_nonneg_right h1 hm')
    exact f64_mono (by linarith)
  · intro hse
    have hD : f64 (s - e) ≤ 0 := f64_le_zero (by linarith)
    have h1 := f64_mono (mul_le_mul_of_nonpos_left hk hD)
    have h2 := f64_mono (div_le_div_of_nonneg_right h1 hm')
    exact f64_mono (by linarith)

theorem linVal_end {s e m : ℚ} (he : IsDouble e) : linVal s e m m = e := by
  unfold linVal
  rw [sub_self, f64_zero, mul_zero, f64_zero, zero_div, f64_zero, add_zero, f64_of_isDouble he]

theorem linVal_error {s e : ℚ} {k i m : ℕ} (hk : k + i = m) (hm : 0 < m) (hm' : m ≤ 2 ^ 53) :
    |linVal s e i m - (e + (s - e) * (m - i) / m)| ≤ (|s| + |e|) / 2 ^ 50 + 2 ^ (-1072 : ℤ) := by
  have hki : (m : ℚ) - i = k := by rw [← hk]; push_cast; ring
  unfold linVal
  rw [hki, f64_nat (by omega), f64_nat hm']
  have hm0 : (1 : ℚ) ≤ m := by exact_mod_cast hm
  have hk0 : (0 : ℚ) ≤ k := by positivity
  have hkm : (k : ℚ) ≤ m := by exact_mod_cast (by omega : k ≤ m)
  have ht : (2 : ℚ) ^ (-1072 : ℤ) = 4 * 2 ^ (-1074 : ℤ) := by
    have h4 : (2 : ℚ) ^ (2 : ℤ) = 4 := by norm_num
    rw [show (-1072 : ℤ) = -1074 + 2 by norm_num, zpow_add₀ (by norm_num), h4, mul_comm]
  have htp := two_zpow_pos (-1074)
  rw [ht]
  have herr := f64_err
  generalize (2 : ℚ) ^ (-1074 : ℤ) = t at htp herr
  -- `x` is the fraction of the way that remains
  obtain ⟨x, hx⟩ : ∃ x, x = (k : ℚ) / m := ⟨_, rfl⟩
  have hx0 : 0 ≤ x := by rw [hx]; positivity
  have hx1 : x ≤ 1 := by rw [hx, div_le_one (by linarith)]; exact hkm
  have hS : |s - e| ≤ |s| + |e| := abs_sub _ _
  have hS0 : 0 ≤ |s| + |e| := by positivity
  have a1 := herr (s - e)
  have a2 := herr (f64 (s - e) * k)
  have a3 := herr (f64 (f64 (s - e) * k) / m)
  have a4 := herr (e + f64 (f64 (f64 (s - e) * k) / m))
  have b2 : |f64 (f64 (s - e) * k) / m - f64 (s - e) * x| ≤
      |f64 (s - e)| * x / 2 ^ 53 + t / 2 := by
    have : f64 (f64 (s - e) * k) / m - f64 (s - e) * x =
        (f64 (f64 (s - e) * k) - f64 (s - e) * k) / m := by rw [hx]; ring
    rw [this, abs_div, abs_of_nonneg (by linarith : (0 : ℚ) ≤ m), div_le_iff₀ (by linarith)]
    rw [abs_mul, abs_of_nonneg hk0] at a2
    refine le_trans a2 ?_
    have : (|f64 (s - e)| * x / 2 ^ 53 + t / 2) * m =
        |f64 (s - e)| * k / 2 ^ 53 + t / 2 * m := by
      rw [hx]; field_simp
    rw [this]
    have := mul_le_mul_of_nonneg_left hm0 (show (0 : ℚ) ≤ t / 2 by linarith)
    linarith
  have hexact : e + (s - e) * k / m = e + (s - e) * x := by rw [hx]; ring
  rw [hexact]
  have hbetween : |e + (s - e) * x| ≤ |s| + |e| := by
    have : e + (s - e) * x = e * (1 - x) + s * x := by ring
    rw [this]
    have h1 := abs_add_le (e * (1 - x)) (s * x)
    rw [abs_mul, abs_mul, abs_of_nonneg hx0, abs_of_nonneg (by linarith : 0 ≤ 1 - x)] at h1
    have h2 := mul_le_mul_of_nonneg_left hx1 (abs_nonneg s)
    have h3 := mul_le_mul_of_nonneg_left (show 1 - x ≤ 1 by linarith) (abs_nonneg e)
    linarith
  generalize f64 (e + f64 (f64 (f64 (s - e) * k) / m)) = V at *
  generalize f64 (f64 (f64 (s - e) * k) / m) = Q at *
  generalize f64 (f64 (s - e) * k) / m = P at *
  generalize f64 (s - e) = D1 at *
  generalize s - e = D at *
  generalize |s| + |e| = S at *
  clear hexact hx a2 hki
  have c1 : |D1| ≤ S + S / 2 ^ 53 + t / 2 := by
    have := abs_sub_abs_le_abs_sub D1 D
    have : |D| / 2 ^ 53 ≤ S / 2 ^ 53 := by gcongr
    linarith
  have c1' : |D1 - D| ≤ S / 2 ^ 53 + t / 2 := by
    have : |D| / 2 ^ 53 ≤ S / 2 ^ 53 := by gcongr
    linarith
  have c2 : |D1| * x ≤ |D1| := mul_le_of_le_one_right (abs_nonneg _) hx1
  have c3 : |P| ≤ |D1| + |D1| / 2 ^ 53 + t / 2 := by
    have h := abs_sub_abs_le_abs_sub P (D1 * x)
    rw [abs_mul, abs_of_nonneg hx0] at h
    have : |D1| * x / 2 ^ 53 ≤ |D1| / 2 ^ 53 := by gcongr
    linarith
  have c4 : |Q - D * x| ≤ |Q - P| + |P - D1 * x| + |D1 - D| := by
    have e1 : Q - D * x = (Q - P) + (P - D1 * x) + (D1 - D) * x := by ring
    rw [e1]
    have h := abs_add_three (Q - P) (P - D1 * x) ((D1 - D) * x)
    rw [abs_mul (D1 - D), abs_of_nonneg hx0] at h
    have := mul_le_of_le_one_right (abs_nonneg (D1 - D)) hx1
    linarith
  have c5 : |V - (e + D * x)| ≤ |V - (e + Q)| + |Q - D * x| := by
    have e1 : V - (e + D * x) = (V - (e + Q)) + (Q - D * x) := by ring
    rw [e1]; exact abs_add_le _ _
  have c6 : |e + Q| ≤ |e + D * x| + |Q - D * x| := by
    have e1 : e + Q = (e + D * x) + (Q - D * x) := by ring
    rw [e1]; exact abs_add_le _ _
  have c7 : |D1| * x / 2 ^ 53 ≤ |D1| / 2 ^ 53 := by gcongr
  generalize |D1| = d1 at *
  generalize |P| = p at *
  generalize |Q - D * x| = q at *
  generalize |e + Q| = eq at *
  generalize |V - (e + Q)| = v1 at *
  generalize |e + D * x| = ed at *
  generalize |V - (e + D * x)| = v0 at *
  generalize |Q - P| = qp at *
  generalize |P - D1 * x| = pd at *
  generalize |D1 - D| = dd at *
  norm_num at *
  linarith

/-- C106 for `lin_variation`: on the machine too the value never passes the end value, which is
reached exactly; and it misses the exact interpolation by at most about `2^-50` (relative). -/
theorem C106_lin {start : Opts ℚ} {c1 c2 s e : ℚ} {opt : String} {kw : OHKw ℚ}
    (h1 : start.lookup "c1" = some c1) (h2 : start.lookup "c2" = some c2)
    (hs : start.lookup opt = some s) (he : IsEnd64 c1 c2 kw opt e) (i m : ℕ) (hm : 0 < m)
    (him : i ≤ m) :
    ∃ v, ohLinVariationR f64 start opt { kw with iternow := some (i : ℚ), itermax := some (m : ℚ) }
        = .ok v ∧
      (e ≤ s → e ≤ v) ∧ (s ≤ e → v ≤ e) ∧ (i = m → v = e) ∧
      (m ≤ 2 ^ 53 →
        |v - (e + (s - e) * (m - i) / m)| ≤ (|s| + |e|) / 2 ^ 50 + 2 ^ (-1072 : ℤ)) := by
  have hmq : (0 : ℚ) < m := by exact_mod_cast hm
  have himq : (i : ℚ) ≤ m := by exact_mod_cast him
  have hend := linVal_end (s := s) (m := m) (isEnd64_double he)
  have hmono := linVal_mono (s := s) (e := e) hmq himq
  rw [hend] at hmono
  refine ⟨_, linVariationR_eq h1 h2 hs he hmq.ne', hmono.1, hmono.2, ?_, ?_⟩
  · rintro rfl; exact hend
  · intro h; exact linVal_error (k := m - i) (by omega) hm h

/-- C106: rounding keeps `lin_variation` monotone in the iteration number. -/
theorem C106_lin_monotone {start : Opts ℚ} {c1 c2 s e : ℚ} {opt : String} {kw : OHKw ℚ}
    (h1 : start.lookup "c1" = some c1) (h2 : start.lookup "c2" = some c2)
    (hs : start.lookup opt = some s) (he : IsEnd64 c1 c2 kw opt e) (i i' m : ℕ) (hm : 0 < m)
    (hii : i ≤ i') :
    ∃ v v',
      ohLinVariationR f64 start opt { kw with iternow := some (i : ℚ), itermax := some (m : ℚ) }
        = .ok v ∧
      ohLinVariationR f64 start opt { kw with iternow := some (i' : ℚ), itermax := some (m : ℚ) }
        = .ok v' ∧
      (e ≤ s → v' ≤ v) ∧ (s ≤ e → v ≤ v') := by
  have hmq : (0 : ℚ) < m := by exact_mod_cast hm
  have hq : (i : ℚ) ≤ i' := by exact_mod_cast hii
  exact ⟨_, _, linVariationR_eq h1 h2 hs he hmq.ne', linVariationR_eq h1 h2 hs he hmq.ne',
    linVal_mono hmq hq⟩

/-- C106: the start value is not always met.  With `w = 1.2`, the default end value and 100
iterations, `lin_variation` starts above `w`. -/
theorem C106_lin_overshoots :
    ∃ v, ohLinVariationR f64 [("c1", f64 (1 / 2)), ("c2", f64 (3 / 10)), ("w", f64 (6 / 5))] "w"
        { iternow := some 0, itermax := some 100 } = .ok v ∧
      f64 (2 / 5) < f64 (6 / 5) ∧ f64 (6 / 5) < v := by
  refine ⟨_, linVariationR_eq (c1 := f64 (1 / 2)) (c2 := f64 (3 / 10)) (s := f64 (6 / 5))
    (e := f64 (2 / 5)) (kw := {}) rfl rfl rfl (.w (by simp)) (by norm_num), by decide +kernel, ?_⟩
  unfold linVal
  decide +kernel

/-! ## nonlin_mod -/

/-- What is assumed of the machine's `x ** p` for one exponent: monotone for nonnegative `x`, exact at
0 and 1. -/
structure GoodPow (M : MachineMath ℚ) (p : ℚ) : Prop where
  zero : M.pow 0 p = 0
  one : M.pow 1 p = 1
  mono : ∀ x y, 0 ≤ x → x ≤ y → M.pow x p ≤ M.pow y p

/-- The machine's `end + (start - end) * ((itermax - iternow) ** n / itermax ** n)`. -/
def nonlinVal (M : MachineMath ℚ) (p s e i m : ℚ) : ℚ :=
  f64 (e + f64 (f64 (s - e) * f64 (M.pow (f64 (m - i)) p / M.pow (f64 m) p)))

theorem goodPow_pos {M : MachineMath ℚ} {p : ℚ} (hM : GoodPow M p) {m : ℕ} (hm : 0 < m) :
    1 ≤ M.pow (f64 m) p := by
  have h1 : (1 : ℚ) ≤ f64 m := by
    have := f64_mono (show (1 : ℚ) ≤ m by exact_mod_cast hm)
    rwa [f64_one] at this
  rw [← hM.one]
  exact hM.mono _ _ (by norm_num) h1

theorem nonlinModR_eq {start : Opts ℚ} {c1 c2 s e : ℚ} {opt : String} {kw : OHKw ℚ}
    (h1 : start.lookup "c1" = some c1) (h2 : start.lookup "c2" = some c2)
    (hs : start.lookup opt = some s) (he : IsEnd64 c1 c2 kw opt e) {M : MachineMath ℚ}
    (hp : 0 < kw.n.getD (f64 (6 / 5))) (hM : GoodPow M (kw.n.getD (f64 (6 / 5)))) {i m : ℕ}
    (hm : 0 < m) (him : i ≤ m) :
    ohNonlinModR f64 M start opt { kw with iternow := some (i : ℚ), itermax := some (m : ℚ) } =
      .ok (nonlinVal M (kw.n.getD (f64 (6 / 5))) s e i m) := by
  have hq : (i : ℚ) ≤ m := by exact_mod_cast him
  have hmq : (0 : ℚ) < m := by exact_mod_cast hm
  have hpow := goodPow_pos hM hm
  unfold ohNonlinModR
  dsimp only
  rw [startEndR_isEnd h1 h2 hs (isEnd64_kw he _ _)]
  dsimp only
  rw [if_neg (by push Not; exact ⟨by linarith, hmq.le⟩),
    if_neg (by push Not; exact ⟨fun _ => hp.le, by linarith⟩)]
  rfl

theorem nonlinVal_mono {M : MachineMath ℚ} {p : ℚ} (hM : GoodPow M p) (s e : ℚ) {i i' m : ℕ}
    (hm : 0 < m) (h : i ≤ i') (him : i' ≤ m) :
    (e ≤ s → nonlinVal M p s e i' m ≤ nonlinVal M p s e i m) ∧
      (s ≤ e → nonlinVal M p s e i m ≤ nonlinVal M p s e i' m) := by
  have hq : (i : ℚ) ≤ i' := by exact_mod_cast h
  have hq' : (i' : ℚ) ≤ m := by exact_mod_cast him
  have hpow := goodPow_pos hM hm
  have h0 : 0 ≤ f64 ((m : ℚ) - i') := f64_nonneg (by linarith)
  have h1 := hM.mono _ _ h0 (f64_mono (show (m : ℚ) - i' ≤ m - i by linarith))
  have h2 := f64_mono (div_le_div_of_nonneg_right h1 (by linarith : 0 ≤ M.pow (f64 (m : ℚ)) p))
  constructor
  · intro hse
    have hD : 0 ≤ f64 (s - e) := f64_nonneg (by linarith)
    have h3 := f64_mono (mul_le_mul_of_nonneg_left h2 hD)
    exact f64_mono (by linarith)
  · intro hse
    have hD : f64 (s - e) ≤ 0 := f64_le_zero (by linarith)
    have h3 := f64_mono (mul_le_mul_of_nonpos_left h2 hD)
    exact f64_mono (by linarith)

theorem nonlinVal_end {M : MachineMath ℚ} {p : ℚ} (hM : GoodPow M p) {s e m : ℚ} (he : IsDouble e) :
    nonlinVal M p s e m m = e := by
  unfold nonlinVal
  rw [sub_self, f64_zero, hM.zero, zero_div, f64_zero, mul_zero, f64_zero, add_zero,
    f64_of_isDouble he]

theorem nonlinVal_start {M : MachineMath ℚ} {p : ℚ} (hM : GoodPow M p) (s e : ℚ) {m : ℕ}
    (hm : 0 < m) : nonlinVal M p s e 0 m = f64 (e + f64 (s - e)) := by
  have := goodPow_pos hM hm
  unfold nonlinVal
  rw [sub_zero, div_self (by linarith), f64_one, mul_one, f64_idem]

theorem there_and_back (s e : ℚ) :
    |f64 (e + f64 (s - e)) - s| ≤ (|s| + |e|) / 2 ^ 51 + 2 ^ (-1072 : ℤ) := by
  have ht : (2 : ℚ) ^ (-1072 : ℤ) = 4 * 2 ^ (-1074 : ℤ) := by
    have h4 : (2 : ℚ) ^ (2 : ℤ) = 4 := by norm_num
    rw [show (-1072 : ℤ) = -1074 + 2 by norm_num, zpow_add₀ (by norm_num), h4, mul_comm]
  have htp := two_zpow_pos (-1074)
  rw [ht]
  have a1 := f64_err (s - e)
  have a2 := f64_err (e + f64 (s - e))
  generalize (2 : ℚ) ^ (-1074 : ℤ) = t at htp a1 a2
  have hS : |s - e| ≤ |s| + |e| := abs_sub _ _
  have hs : |s| ≤ |s| + |e| := by linarith [abs_nonneg e]
  have hS0 : 0 ≤ |s| + |e| := by positivity
  have c1 : |e + f64 (s - e)| ≤ |s| + |f64 (s - e) - (s - e)| := by
    have e1 : e + f64 (s - e) = s + (f64 (s - e) - (s - e)) := by ring
    rw [e1]; exact abs_add_le _ _
  have c2 : |f64 (e + f64 (s - e)) - s| ≤
      |f64 (e + f64 (s - e)) - (e + f64 (s - e))| + |f64 (s - e) - (s - e)| := by
    have e1 : f64 (e + f64 (s - e)) - s =
      (f64 (e + f64 (s - e)) - (e + f64 (s - e))) + (f64 (s - e) - (s - e)) := by ring
    rw [e1]; exact abs_add_le _ _
  have c3 : |s - e| / 2 ^ 53 ≤ (|s| + |e|) / 2 ^ 53 := by gcongr
  generalize |f64 (e + f64 (s - e)) - s| = v0 at *
  generalize |f64 (e + f64 (s - e)) - (e + f64 (s - e))| = v1 at *
  generalize |f64 (s - e) - (s - e)| = v2 at *
  generalize |e + f64 (s - e)| = v3 at *
  generalize |s - e| = v4 at *
  generalize |s| + |e| = S at *
  norm_num at *
  linarith

/-- C106 for `nonlin_mod`, for every machine whose `**` is monotone and exact at 0 and 1: the value
never passes the end value, which is reached exactly, nor the value `end + (start - end)` computed at
iteration 0, which differs from the start value by rounding only. -/
theorem C106_nonlin {start : Opts ℚ} {c1 c2 s e : ℚ} {opt : String} {kw : OHKw ℚ}
    (h1 : start.lookup "c1" = some c1) (h2 : start.lookup "c2" = some c2)
    (hs : start.lookup opt = some s) (he : IsEnd64 c1 c2 kw opt e) (M : MachineMath ℚ)
    (hp : 0 < kw.n.getD (f64 (6 / 5))) (hM : GoodPow M (kw.n.getD (f64 (6 / 5)))) (i m : ℕ)
    (hm : 0 < m) (him : i ≤ m) :
    ∃ v v0,
      ohNonlinModR f64 M start opt { kw with iternow := some (i : ℚ), itermax := some (m : ℚ) }
        = .ok v ∧ v0 = f64 (e + f64 (s - e)) ∧
      |v0 - s| ≤ (|s| + |e|) / 2 ^ 51 + 2 ^ (-1072 : ℤ) ∧
      (e ≤ s → e ≤ v ∧ v ≤ v0) ∧ (s ≤ e → v ≤ e ∧ v0 ≤ v) ∧
      (i = 0 → v = v0) ∧ (i = m → v = e) := by
  have hend := nonlinVal_end hM (s := s) (m := m) (isEnd64_double he)
  have hstart := nonlinVal_start hM s e hm
  have m1 := nonlinVal_mono hM s e hm him le_rfl
  have m2 := nonlinVal_mono hM s e hm (Nat.zero_le i) him
  rw [hend] at m1
  rw [Nat.cast_zero, hstart] at m2
  refine ⟨_, _, nonlinModR_eq h1 h2 hs he hp hM hm him, rfl, there_and_back s e,
    fun h => ⟨m1.1 h, m2.1 h⟩, fun h => ⟨m1.2 h, m2.2 h⟩, ?_, ?_⟩
  · rintro rfl; rw [Nat.cast_zero]; exact hstart
  · rintro rfl; exact hend

/-- C106: rounding keeps `nonlin_mod` monotone. -/
theorem C106_nonlin_monotone {start : Opts ℚ} {c1 c2 s e : ℚ} {opt : String} {kw : OHKw ℚ}
    (h1 : start.lookup "c1" = some c1) (h2 : start.lookup "c2" = some c2)
    (hs : start.lookup opt = some s) (he : IsEnd64 c1 c2 kw opt e) (M : MachineMath ℚ)
    (hp : 0 < kw.n.getD (f64 (6 / 5))) (hM : GoodPow M (kw.n.getD (f64 (6 / 5)))) (i i' m : ℕ)
    (hm : 0 < m) (hii : i ≤ i') (him : i' ≤ m) :
    ∃ v v',
      ohNonlinModR f64 M start opt { kw with iternow := some (i : ℚ), itermax := some (m : ℚ) }
        = .ok v ∧
      ohNonlinModR f64 M start opt { kw with iternow := some (i' : ℚ), itermax := some (m : ℚ) }
        = .ok v' ∧
      (e ≤ s → v' ≤ v) ∧ (s ≤ e → v ≤ v') :=
  ⟨_, _, nonlinModR_eq h1 h2 hs he hp hM hm (le_trans hii him),
    nonlinModR_eq h1 h2 hs he hp hM hm him, nonlinVal_mono hM s e hm hii him⟩

/-! ## exp_decay -/

/-- What is assumed of the machine's `math.exp`: monotone, and at least 1 for nonnegative arguments. -/
structure GoodExp (M : MachineMath ℚ) : Prop where
  mono : ∀ x y, x ≤ y → M.exp x ≤ M.exp y
  one_le : ∀ x, 0 ≤ x → 1 ≤ M.exp x

/-- The machine's `1 + d2 * iternow / itermax`. -/
def decayDen (d2 i m : ℚ) : ℚ := f64 (1 + f64 (f64 (d2 * i) / m))

theorem decayDen_one_le {d2 i m : ℚ} (hd : 0 ≤ d2) (hi : 0 ≤ i) (hm : 0 < m) :
    1 ≤ decayDen d2 i m := by
  have h1 : 0 ≤ f64 (f64 (d2 * i) / m) :=
    f64_nonneg (div_nonneg (f64_nonneg (mul_nonneg hd hi)) hm.le)
  have := f64_mono (show (1 : ℚ) ≤ 1 + f64 (f64 (d2 * i) / m) by linarith)
  rwa [f64_one] at this

theorem decayDen_mono {d2 i i' m : ℚ} (hd : 0 ≤ d2) (hm : 0 < m) (h : i ≤ i') :
    decayDen d2 i m ≤ decayDen d2 i' m := by
  have h1 := f64_mono (mul_le_mul_of_nonneg_left h hd)
  have h2 := f64_mono (div_le_div_of_nonneg_right h1 hm.le)
  exact f64_mono (by linarith)

/-- The machine's `(start - end - d1) * math.exp(1 / (1 + d2 * iternow / itermax))`. -/
def expVal (M : MachineMath ℚ) (s e d1 d2 i m : ℚ) : ℚ :=
  f64 (f64 (f64 (s - e) - d1) * M.exp (f64 (1 / decayDen d2 i m)))

theorem expDecayR_eq {start : Opts ℚ} {c1 c2 s e : ℚ} {opt : String} {kw : OHKw ℚ}
    (h1 : start.lookup "c1" = some c1) (h2 : start.lookup "c2" = some c2)
    (hs : start.lookup opt = some s) (he : IsEnd64 c1 c2 kw opt e) (M : MachineMath ℚ)
    (hd : 0 ≤ kw.d2.getD 7) {i m : ℚ} (hi : 0 ≤ i) (hm : 0 < m) :
    ohExpDecayR f64 M start opt { kw with iternow := some i, itermax := some m } =
      .ok (expVal M s e (kw.d1.getD (f64 (1 / 5))) (kw.d2.getD 7) i m) := by
  have hden := decayDen_one_le hd hi hm
  unfold ohExpDecayR
  dsimp only
  rw [startEndR_isEnd h1 h2 hs (isEnd64_kw he _ _)]
  dsimp only
  unfold decayDen at hden
  rw [if_neg hm.ne', if_neg (by linarith)]
  rfl

/-- C106 for `exp_decay`, for every machine whose `exp` is monotone and at least 1 on nonnegative
numbers: monotone in the iteration number as in C35, and still never positive when
`start - end <= d1`. -/
theorem C106_exp {start : Opts ℚ} {c1 c2 s e : ℚ} {opt : String} {kw : OHKw ℚ}
    (h1 : start.lookup "c1" = some c1) (h2 : start.lookup "c2" = some c2)
    (hs : start.lookup opt = some s) (he : IsEnd64 c1 c2 kw opt e) (M : MachineMath ℚ)
    (hM : GoodExp M) (hd1 : IsDouble (kw.d1.getD (f64 (1 / 5)))) (hd : 0 ≤ kw.d2.getD 7)
    (i i' m : ℕ) (hm : 0 < m) (hii : i ≤ i') :
    ∃ v v',
      ohExpDecayR f64 M start opt { kw with iternow := some (i : ℚ), itermax := some (m : ℚ) }
        = .ok v ∧
      ohExpDecayR f64 M start opt { kw with iternow := some (i' : ℚ), itermax := some (m : ℚ) }
        = .ok v' ∧
      (kw.d1.getD (f64 (1 / 5)) ≤ s - e → 0 ≤ v' ∧ v' ≤ v) ∧
      (s - e ≤ kw.d1.getD (f64 (1 / 5)) → v ≤ v' ∧ v' ≤ 0) := by
  have hmq : (0 : ℚ) < m := by exact_mod_cast hm
  have hq : (i : ℚ) ≤ i' := by exact_mod_cast hii
  have hi0 : (0 : ℚ) ≤ i := by positivity
  have hi0' : (0 : ℚ) ≤ i' := by positivity
  refine ⟨_, _, expDecayR_eq h1 h2 hs he M hd hi0 hmq, expDecayR_eq h1 h2 hs he M hd hi0' hmq, ?_, ?_⟩
  all_goals
    generalize kw.d1.getD (f64 (1 / 5)) = d1 at *
    generalize kw.d2.getD 7 = d2 at *
    have g1 := decayDen_one_le hd hi0 hmq
    have g2 := decayDen_mono hd hmq hq
    have g3 : M.exp (f64 (1 / decayDen d2 i' m)) ≤ M.exp (f64 (1 / decayDen d2 i m)) :=
      hM.mono _ _ (f64_mono (one_div_le_one_div_of_le (by linarith) g2))
    have g4 : 1 ≤ M.exp (f64 (1 / decayDen d2 i' m)) := by
      apply hM.one_le
      apply f64_nonneg
      apply div_nonneg (by norm_num)
      linarith
    intro hse
  · have hc : 0 ≤ f64 (f64 (s - e) - d1) := by
      apply f64_nonneg
      have := f64_mono hse
      rw [f64_of_isDouble hd1] at this
      linarith
    exact ⟨f64_nonneg (mul_nonneg hc (by linarith)), f64_mono (mul_le_mul_of_nonneg_left g3 hc)⟩
  · have hc : f64 (f64 (s - e) - d1) ≤ 0 := by
      apply f64_le_zero
      have := f64_mono hse
      rw [f64_of_isDouble hd1] at this
      linarith
    exact ⟨f64_mono (mul_le_mul_of_nonpos_left g3 hc),
      f64_le_zero (mul_nonpos_of_nonpos_of_nonneg hc (by linarith))⟩

/-- C106: with the defaults, `exp_decay` makes the social coefficient negative on the machine too, by
at least the double nearest to 0.2. -/
theorem C106_exp_c2 {start : Opts ℚ} {c1 c2 : ℚ} (h1 : start.lookup "c1" = some c1)
    (h2 : start.lookup "c2" = some c2) (hc : IsDouble c2) (M : MachineMath ℚ) (hM : GoodExp M)
    (i m : ℕ) (hm : 0 < m) :
    ∃ v, ohExpDecayR f64 M start "c2" { iternow := some (i : ℚ), itermax := some (m : ℚ) } = .ok v ∧
      v ≤ -f64 (1 / 5) ∧ v < 0 := by
  have hmq : (0 : ℚ) < m := by exact_mod_cast hm
  have hi0 : (0 : ℚ) ≤ i := by positivity
  have heq := expDecayR_eq (kw := {}) h1 h2 h2 (.c2 (by simp) hc) M (by norm_num) hi0 hmq
  have hle : expVal M c2 c2 (f64 (1 / 5)) 7 i m ≤ -f64 (1 / 5) := by
    unfold expVal
    rw [sub_self, f64_zero, zero_sub, f64_neg, f64_idem]
    have g4 : 1 ≤ M.exp (f64 (1 / decayDen 7 i m)) := by
      apply hM.one_le
      apply f64_nonneg
      apply div_nonneg (by norm_num)
      linarith [decayDen_one_le (d2 := 7) (by norm_num) hi0 hmq]
    have hp : 0 ≤ f64 (1 / 5) := f64_nonneg (by norm_num)
    have := f64_mono (show -f64 (1 / 5) * M.exp (f64 (1 / decayDen 7 i m)) ≤ -f64 (1 / 5) by nlinarith)
    rwa [f64_neg (f64 (1 / 5)), f64_idem] at this
  refine ⟨_, heq, hle, lt_of_le_of_lt hle ?_⟩
  have : (0 : ℚ) < f64 (1 / 5) := by decide +kernel
  simpa using this

/-! ## random -/

theorem sampled_between {s e u : ℚ} (hs : IsDouble s) (he : IsDouble e) (hu : IsSample u) :
    Between s e (f64 (s + f64 (f64 (e - s) * u))) := by
  have hs' := f64_of_isDouble hs
  have he' := f64_of_isDouble he
  have hu0 : 0 ≤ u := isSample_nonneg hu
  have up : ∀ {a b : ℚ}, f64 a = a → f64 b = b → a ≤ b →
      a ≤ f64 (a + f64 (f64 (b - a) * u)) ∧ f64 (a + f64 (f64 (b - a) * u)) ≤ b := by
    intro a b ha hb hab
    rcases hab.eq_or_lt with rfl | hlt
    · rw [sub_self, f64_zero, zero_mul, f64_zero, add_zero, ha]
      exact ⟨le_rfl, le_rfl⟩
    · have h1 := f64_sample hlt ha hb hu
      have h0 : 0 ≤ f64 (f64 (b - a) * u) := f64_nonneg (mul_nonneg (f64_nonneg (by linarith)) hu0)
      have a1 := f64_mono (show a ≤ a + f64 (f64 (b - a) * u) by linarith)
      have a2 := f64_mono (show a + f64 (f64 (b - a) * u) ≤ b by linarith)
      rw [ha] at a1
      rw [hb] at a2
      exact ⟨a1, a2⟩
  rcases le_total s e with h | h
  · have := up hs' he' h
    exact ⟨by rw [min_eq_left h]; exact this.1, by rw [max_eq_right h]; exact this.2⟩
  · have := up (a := -s) (b := -e) (by rw [f64_neg, hs']) (by rw [f64_neg, he']) (by linarith)
    have e1 : f64 (-s + f64 (f64 (-e - -s) * u)) = -f64 (s + f64 (f64 (e - s) * u)) := by
      rw [show -e - -s = -(e - s) by ring, f64_neg, neg_mul, f64_neg, ← neg_add, f64_neg]
    rw [e1] at this
    exact ⟨by rw [min_eq_right h]; linarith [this.2], by rw [max_eq_left h]; linarith [this.1]⟩

/-- C106 for `random`: the drawn value lies between the start value and the end value, whatever the
rounding. -/
theorem C106_random {start : Opts ℚ} {s : ℚ} {opt : String} {eo : Opts ℚ} {kw : OHKw ℚ}
    (hs : start.lookup opt = some s) (hsd : IsDouble s) (hk : kw.endOpts = some eo)
    (heo : ∀ e, eo.lookup opt = some e → IsDouble e) {u : ℚ} (hu : IsSample u) :
    ∃ v, ohRandomR f64 start opt kw u = .ok v ∧
      (∀ e, eo.lookup opt = some e → Between s e v) ∧
      (eo.lookup opt = none → s ≤ v ∧ v ≤ f64 (s + 1)) := by
  cases h : eo.lookup opt with
  | none =>
    refine ⟨f64 (s + f64 (f64 (f64 (s + 1) - s) * u)), by unfold ohRandomR; simp only [hs, hk, h], ?_, ?_⟩
    · intro e he; cases he
    · intro _
      have hle : s ≤ f64 (s + 1) := by
        have := f64_mono (show s ≤ s + 1 by linarith)
        rwa [f64_of_isDouble hsd] at this
      have := sampled_between hsd (isDouble_f64 (s + 1)) hu
      unfold Between at this
      rwa [min_eq_left hle, max_eq_right hle] at this
  | some e =>
    refine ⟨f64 (s + f64 (f64 (e - s) * u)), by unfold ohRandomR; simp only [hs, hk, h], ?_, ?_⟩
    · rintro e' he; cases he
      exact sampled_between hsd (heo e h) hu
    · intro h'; cases h'

/-! ## Whole runs -/

section
variable {n d : Nat}

theorem ohLoopR_spec (M : MachineMath ℚ) (strategy : List (String × String)) (start : Opts ℚ)
    (kw : OHKw ℚ) (u : String → ℚ) (l r : Opts ℚ)
    (h : ohLoopR f64 M strategy start kw u l = .ok r) :
    List.Forall₂ (fun a b => b.1 = a.1 ∧ (strategy.lookup a.1 = none → b.2 = a.2) ∧
      ∀ name, strategy.lookup a.1 = some name →
        ohStrategyR f64 M name start a.1 kw (u a.1) = .ok b.2) l r := by
  induction l generalizing r with
  | nil => cases h; exact .nil
  | cons a l ih =>
    obtain ⟨o, v⟩ := a
    rw [ohLoopR] at h
    split at h
    · next hl =>
      split at h
      · cases h
      · next r' h' =>
        cases h
        exact .cons ⟨rfl, fun _ => rfl, fun name hn => by rw [hl] at hn; cases hn⟩ (ih r' h')
    · next name hl =>
      split at h
      · cases h
      · next v' hv =>
        split at h
        · cases h
        · next r' h' =>
          cases h
          refine .cons ⟨rfl, fun hn => absurd (hl.symm.trans hn) (by simp), fun name' hn => ?_⟩ (ih r' h')
          rw [hl] at hn
          cases hn
          exact hv

/-- The options in use are the constructor's, or computed from them for one iteration number. -/
def OptionsFromStart64 (M : MachineMath ℚ) (cfg : Config n d ℚ) (o : Opts ℚ) : Prop :=
  o = cfg.options ∨ ∃ (i iters : Nat) (u : String → ℚ), i < iters ∧
    ohCallR f64 M cfg.ohStrategy cfg.options
      { iternow := some (i : ℚ), itermax := some (iters : ℚ) } u = .ok o

/-- C106, no drift: on a machine whose options handler computes in binary64, rounding errors of the
schedule do not accumulate: in every state the options are computed from the constructor's options
for a single iteration number. -/
theorem C106_no_drift (A : Arith n d ℚ) (M : MachineMath ℚ) (cfg : Config n d ℚ)
    (hA : A.oh = callOptionsR f64 M cfg) (P V : Mat n d ℚ → Prop) (D : Draw n d ℚ → Prop)
    (s : Opt n d ℚ) (h : RunsR A cfg P V D s) : OptionsFromStart64 M cfg s.swarm.options := by
  induction h with
  | created => exact Or.inl rfl
  | optimized s ev iters nproc env _ _ hs =>
    have hmove : ∀ r i (s : Opt n d ℚ), i < iters → OptionsFromStart64 M cfg s.swarm.options →
        OptionsFromStart64 M cfg (moveSwarmR A cfg r iters i s).1.swarm.options := by
      intro r i s hi hs
      have hco : ∀ o, A.oh iters i r s.swarm = .ok o → OptionsFromStart64 M cfg o := by
        intro o ho
        rw [hA] at ho
        unfold callOptionsR at ho
        split at ho
        · cases ho; exact hs
        · exact Or.inr ⟨i, iters, r.oh, hi, ho⟩
      unfold moveSwarmR
      split
      · exact hs
      · next o ho =>
        simp only []
        split
        · exact hco o ho
        · split <;> exact hco o ho
    have hiter : ∀ r i q (ev : Mat n d ℚ → Except Err (Costs n ℚ)) (s : Opt n d ℚ), i < iters →
        OptionsFromStart64 M cfg s.swarm.options →
        OptionsFromStart64 M cfg (iterateR A cfg ev r iters i q s).1.swarm.options := by
      intro r i q ev s hi hs
      unfold iterateR
      split
      · exact hs
      · next c hc =>
        simp only []
        split
        · exact hs
        · next t g hg =>
          have hm := hmove r i (recordBestR A t g (recordEval c s)) hi hs
          split
          · exact hs
          · split
            · next s3 e h => rw [h] at hm; exact hm
            · next s3 h => rw [h] at hm; exact hm
    have hloop : ∀ m i q (s : Opt n d ℚ), i + m ≤ iters → OptionsFromStart64 M cfg s.swarm.options →
        OptionsFromStart64 M cfg (loopR A cfg ev env iters m i q s).1.swarm.options := by
      intro m
      induction m with
      | zero => intro i q s _ hs; exact hs
      | succ m ih =>
        intro i q s hi hs
        have h1 := hiter (env i) i q (ev i) s (by omega) hs
        unfold loopR
        split
        · next s' e he => rw [he] at h1; exact h1
        · next s' he => rw [he] at h1; exact h1
        · next s' q' he => rw [he] at h1; exact ih _ _ _ (by omega) h1
    have hl := hloop iters 0 [] (startState cfg nproc s) (by omega) hs
    have hc := optimizeR_cases A cfg ev iters nproc env s
    generalize (optimizeR A cfg ev iters nproc env s).1 = s' at hc ⊢
    generalize (optimizeR A cfg ev iters nproc env s).2 = o at hc
    cases hc with
    | badPool h => exact hs
    | loopError s1 e hp h => rw [h] at hl; exact hl
    | finishError s1 e hp h hf => rw [h] at hl; exact hl
    | done s1 r hp h hf => rw [h] at hl; exact hl

/-- C106 for whole runs: an option that follows `lin_variation` or `nonlin_mod` never passes its end
value, in any state of any history of `optimize` and `reset` calls on a binary64 machine. -/
theorem C106_run (A : Arith n d ℚ) (M : MachineMath ℚ) (cfg : Config n d ℚ)
    (hA : A.oh = callOptionsR f64 M cfg) (hM : GoodPow M (f64 (6 / 5)))
    (P V : Mat n d ℚ → Prop) (D : Draw n d ℚ → Prop) (s : Opt n d ℚ) (h : RunsR A cfg P V D s)
    (opt name : String) (hl : cfg.ohStrategy.lookup opt = some name)
    (hname : name = "lin_variation" ∨ name = "nonlin_mod") (c1 c2 st e : ℚ)
    (h1 : cfg.options.lookup "c1" = some c1) (h2 : cfg.options.lookup "c2" = some c2)
    (hs : cfg.options.lookup opt = some st) (he : IsEnd64 c1 c2 {} opt e) :
    ∃ v, s.swarm.options.lookup opt = some v ∧ (e ≤ st → e ≤ v) ∧ (st ≤ e → v ≤ e) := by
  rcases C106_no_drift A M cfg hA P V D s h with h0 | ⟨i, iters, u, hi, h0⟩
  · exact ⟨st, by rw [h0]; exact hs, id, id⟩
  · have hne : cfg.ohStrategy.isEmpty = false := by
      cases hc : cfg.ohStrategy with
      | nil => rw [hc] at hl; cases hl
      | cons => rfl
    unfold ohCallR at h0
    rw [hne] at h0
    have hf := ohLoopR_spec M _ _ _ u _ _ h0
    obtain ⟨v, hv, -, -, hstr⟩ := forall₂_lookup hf (fun a b hab => hab.1) hs
    have hval := hstr name hl
    simp only at hval
    refine ⟨v, hv, ?_⟩
    have hit : 0 < iters := by omega
    rcases hname with rfl | rfl
    · obtain ⟨v', hv', ha, hb, -, -⟩ := C106_lin (kw := {}) h1 h2 hs he i iters hit hi.le
      have : ohLinVariationR f64 cfg.options opt
          { iternow := some (i : ℚ), itermax := some (iters : ℚ) } = .ok v := hval
      rw [hv'] at this
      cases this
      exact ⟨ha, hb⟩
    · obtain ⟨v', v0, hv', -, -, ha, hb, -, -⟩ := C106_nonlin (kw := {}) h1 h2 hs he M
        (show (0 : ℚ) < f64 (6 / 5) by decide +kernel) hM i iters hit hi.le
      have : ohNonlinModR f64 M cfg.options opt
          { iternow := some (i : ℚ), itermax := some (iters : ℚ) } = .ok v := hval
      rw [hv'] at this
      cases this
      exact ⟨fun h => (ha h).1, fun h => (hb h).1⟩

end

/-- A machine meeting the assumptions on `**` and `math.exp` (a crude one: identity power for every
exponent, and `1 + x` above 0). -/
def Ex.crudeMath : MachineMath ℚ where
  exp x := if 0 ≤ x then 1 + x else 0
  pow x _ := x

example : GoodExp Ex.crudeMath ∧ GoodPow Ex.crudeMath (f64 (6 / 5)) := by
  refine ⟨⟨fun x y h => ?_, fun x h => ?_⟩, ⟨rfl, rfl, fun x y _ h => h⟩⟩
  · simp only [Ex.crudeMath]
    split
    · rw [if_pos (by linarith)]; linarith
    · split
      · linarith
      · exact le_rfl
  · simp only [Ex.crudeMath, if_pos h]; linarith

/-- Non-vacuity of the hypotheses on the options: `w = 0.9` with the default end value. -/
example : ([("c1", f64 (1 / 2)), ("c2", f64 (3 / 10)), ("w", f64 (9 / 10))] : Opts ℚ).lookup "w" =
      some (f64 (9 / 10)) ∧
    IsEnd64 (f64 (1 / 2)) (f64 (3 / 10)) {} "w" (f64 (2 / 5)) ∧ f64 (2 / 5) ≤ f64 (9 / 10) ∧
    IsSample (1 / 2) :=
  ⟨rfl, .w (by simp), f64_mono (by norm_num), ⟨2 ^ 52, by norm_num, by norm_num⟩⟩

end PySwarms
