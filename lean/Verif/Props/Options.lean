import Verif.Model.RealOps
import Verif.Lemmas.Reach
import Verif.Examples
import Mathlib.Analysis.SpecialFunctions.Exp
import Mathlib.Tactic.Positivity

/-! # C33–C35: time-varying options -/

set_option linter.unusedSectionVars false

namespace PySwarms

section
variable {K : Type} [Field K] [LinearOrder K] [Transc K]

theorem ohLoop_spec (strategy : List (String × String)) (start : Opts K) (kw : OHKw K)
    (u : String → K) (rest r : Opts K) (h : ohLoop strategy start kw u rest = .ok r) :
    List.Forall₂ (fun a b => b.1 = a.1 ∧ (strategy.lookup a.1 = none → b.2 = a.2) ∧
      ∀ name, strategy.lookup a.1 = some name →
        ohStrategy name start a.1 kw (u a.1) = .ok b.2) rest r := by
  induction rest generalizing r with
  | nil => rw [ohLoop] at h; cases h; exact .nil
  | cons a rest ih =>
    obtain ⟨opt, v⟩ := a
    rw [ohLoop] at h
    split at h
    · next hl =>
      split at h
      · cases h
      · next r' hr =>
        cases h
        exact .cons ⟨rfl, fun _ => rfl, fun name hn => by rw [hl] at hn; cases hn⟩ (ih _ hr)
    · next name hl =>
      split at h
      · cases h
      · next v' hv =>
        split at h
        · cases h
        · next r' hr =>
          cases h
          refine .cons ⟨rfl, ?_, ?_⟩ (ih _ hr)
          · intro hn
            simp only [hl] at hn
            cases hn
          · intro name' hn
            simp only [hl, Option.some.injEq] at hn
            subst hn
            exact hv

/-- C33.  The dictionary returned by an OptionsHandler has the same keys in the same order; an
option without a strategy keeps its value; an option with a strategy gets the value which that
strategy computes from the *given* dictionary. -/
theorem C33_keys_and_values (strategy : List (String × String)) (start r : Opts K) (kw : OHKw K)
    (u : String → K) (h : ohCall strategy start kw u = .ok r) :
    r.map Prod.fst = start.map Prod.fst ∧
    List.Forall₂ (fun a b => b.1 = a.1 ∧ (strategy.lookup a.1 = none → b.2 = a.2) ∧
      ∀ name, strategy.lookup a.1 = some name →
        ohStrategy name start a.1 kw (u a.1) = .ok b.2) start r := by
  have main : List.Forall₂ (fun a b => b.1 = a.1 ∧ (strategy.lookup a.1 = none → b.2 = a.2) ∧
      ∀ name, strategy.lookup a.1 = some name →
        ohStrategy name start a.1 kw (u a.1) = .ok b.2) start r := by
    unfold ohCall at h
    split at h
    · next he =>
      cases h
      rw [List.isEmpty_iff] at he
      subst he
      exact List.forall₂_same.2 fun a _ => ⟨rfl, fun _ => rfl, fun _ hn => by cases hn⟩
    · exact ohLoop_spec strategy start kw u start r h
  refine ⟨?_, main⟩
  have : List.Forall₂ Eq (r.map Prod.fst) (start.map Prod.fst) := by
    rw [List.forall₂_map_left_iff, List.forall₂_map_right_iff]
    exact main.flip.imp fun a b h => h.1
  exact List.forall₂_eq_eq_eq ▸ this

/-- Lookup version: an option that exists before exists after. -/
theorem forall₂_lookup {P : String × K → String × K → Prop} {l r : Opts K} {k : String} {v : K}
    (h : List.Forall₂ P l r) (hP : ∀ a b, P a b → b.1 = a.1) (hl : l.lookup k = some v) :
    ∃ v', r.lookup k = some v' ∧ P (k, v) (k, v') := by
  induction h with
  | nil => cases hl
  | @cons a b l r hab _ ih =>
    obtain ⟨ka, va⟩ := a
    obtain ⟨kb, vb⟩ := b
    have hk := hP _ _ hab
    simp only at hk
    subst hk
    by_cases hka : k = kb
    · subst hka
      simp only [List.lookup, BEq.rfl, Option.some.injEq] at hl ⊢
      subst hl
      exact ⟨vb, rfl, hab⟩
    · have : (k == kb) = false := by simpa using hka
      simp only [List.lookup, this] at hl ⊢
      exact ih hl

/-- The end value of an option: the user's `end_opts[opt]` if given, else the documented default. -/
inductive IsEnd (c1 c2 : K) (kw : OHKw K) : String → K → Prop
  | given (opt : String) (eo : Opts K) (e : K) (h : kw.endOpts = some eo)
      (h' : eo.lookup opt = some e) : IsEnd c1 c2 kw opt e
  | w (h : ∀ eo, kw.endOpts = some eo → eo.lookup "w" = none) : IsEnd c1 c2 kw "w" (2 / 5)
  | c1 (h : ∀ eo, kw.endOpts = some eo → eo.lookup "c1" = none) : IsEnd c1 c2 kw "c1" (4 / 5 * c1)
  | c2 (h : ∀ eo, kw.endOpts = some eo → eo.lookup "c2" = none) : IsEnd c1 c2 kw "c2" c2

theorem startEnd_isEnd {start : Opts K} {c1 c2 s e : K} {opt : String} {kw : OHKw K}
    (h1 : start.lookup "c1" = some c1) (h2 : start.lookup "c2" = some c2)
    (hs : start.lookup opt = some s) (he : IsEnd c1 c2 kw opt e) :
    startEnd start opt kw = .ok (s, e) := by
  unfold startEnd
  rw [h1, h2]
  simp only [hs]
  cases he with
  | given _ eo _ h h' => simp [h, h']
  | w h =>
    rcases hk : kw.endOpts with _ | eo
    · simp [List.lookup]
    · simp [h eo hk, List.lookup]
  | c1 h =>
    rcases hk : kw.endOpts with _ | eo
    · simp [List.lookup]
    · simp [h eo hk, List.lookup]
  | c2 h =>
    rcases hk : kw.endOpts with _ | eo
    · simp [List.lookup]
    · simp [h eo hk, List.lookup]

end

section
variable {K : Type} [Field K] [LinearOrder K] [IsStrictOrderedRing K] [Transc K]

/-- `v` lies between `a` and `b`. -/
def Between (a b v : K) : Prop := min a b ≤ v ∧ v ≤ max a b

theorem between_lerp {s e t : K} (h0 : 0 ≤ t) (h1 : t ≤ 1) : Between s e (e + (s - e) * t) := by
  constructor
  · rcases le_total s e with h | h
    · rw [min_eq_left h]; nlinarith
    · rw [min_eq_right h]; nlinarith
  · rcases le_total s e with h | h
    · rw [max_eq_right h]; nlinarith
    · rw [max_eq_left h]; nlinarith

/-- C34 for `lin_variation`: it starts at the start value, ends at the end value and stays between
them. -/
theorem C34_lin_between {start : Opts K} {c1 c2 s e : K} {opt : String} {kw : OHKw K}
    (h1 : start.lookup "c1" = some c1) (h2 : start.lookup "c2" = some c2)
    (hs : start.lookup opt = some s) (he : IsEnd c1 c2 kw opt e) {i m : K}
    (hi : kw.iternow = some i) (hm : kw.itermax = some m) (hm0 : 0 < m) (hi0 : 0 ≤ i)
    (him : i ≤ m) :
    ∃ v, ohLinVariation start opt kw = .ok v ∧ Between s e v ∧ (i = 0 → v = s) ∧
      (i = m → v = e) := by
  refine ⟨e + (s - e) * (m - i) / m, ?_, ?_, ?_, ?_⟩
  · unfold ohLinVariation
    rw [startEnd_isEnd h1 h2 hs he]
    simp [hi, hm, hm0.ne']
  · rw [mul_div_assoc]
    apply between_lerp
    · exact div_nonneg (by linarith) hm0.le
    · rw [div_le_one hm0]; linarith
  · rintro rfl
    rw [sub_zero, mul_div_assoc, div_self hm0.ne']
    ring
  · rintro rfl
    simp

/-- C34 for `lin_variation`: monotone in the iteration number. -/
theorem C34_lin_monotone {start : Opts K} {c1 c2 s e : K} {opt : String} {kw : OHKw K}
    (h1 : start.lookup "c1" = some c1) (h2 : start.lookup "c2" = some c2)
    (hs : start.lookup opt = some s) (he : IsEnd c1 c2 kw opt e) {i i' m : K}
    (hm0 : 0 < m) (hii : i ≤ i') :
    ∃ v v', ohLinVariation start opt { kw with iternow := some i, itermax := some m } = .ok v ∧
      ohLinVariation start opt { kw with iternow := some i', itermax := some m } = .ok v' ∧
      (e ≤ s → v' ≤ v) ∧ (s ≤ e → v ≤ v') := by
  have he' : ∀ j, IsEnd c1 c2 { kw with iternow := some j, itermax := some m } opt e := by
    intro j
    cases he with
    | given _ eo _ h h' => exact .given _ eo _ h h'
    | w h => exact .w h
    | c1 h => exact .c1 h
    | c2 h => exact .c2 h
  refine ⟨e + (s - e) * (m - i) / m, e + (s - e) * (m - i') / m, ?_, ?_, ?_, ?_⟩
  · unfold ohLinVariation
    rw [startEnd_isEnd h1 h2 hs (he' i)]
    simp [hm0.ne']
  · unfold ohLinVariation
    rw [startEnd_isEnd h1 h2 hs (he' i')]
    simp [hm0.ne']
  · intro h
    have : (s - e) * (m - i') / m ≤ (s - e) * (m - i) / m := by
      apply div_le_div_of_nonneg_right _ hm0.le
      exact mul_le_mul_of_nonneg_left (by linarith) (by linarith)
    linarith
  · intro h
    have : (s - e) * (m - i) / m ≤ (s - e) * (m - i') / m := by
      apply div_le_div_of_nonneg_right _ hm0.le
      exact mul_le_mul_of_nonpos_left (by linarith) (by linarith)
    linarith

end

/-! ### The real strategies -/

theorem isEnd_kw {K : Type} [Field K] [LinearOrder K] {c1 c2 e : K} {opt : String} {kw : OHKw K}
    (he : IsEnd c1 c2 kw opt e) (i m : Option K) :
    IsEnd c1 c2 { kw with iternow := i, itermax := m } opt e := by
  cases he with
  | given _ eo _ h h' => exact .given _ eo _ h h'
  | w h => exact .w h
  | c1 h => exact .c1 h
  | c2 h => exact .c2 h

/-- C34 for `nonlin_mod` with a modulation index `n > 0`. -/
theorem C34_nonlin_between {start : Opts ℝ} {c1 c2 s e : ℝ} {opt : String} {kw : OHKw ℝ}
    (h1 : start.lookup "c1" = some c1) (h2 : start.lookup "c2" = some c2)
    (hs : start.lookup opt = some s) (he : IsEnd c1 c2 kw opt e) {i m : ℝ}
    (hi : kw.iternow = some i) (hm : kw.itermax = some m) (hm0 : 0 < m) (hi0 : 0 ≤ i)
    (him : i ≤ m) (hn : 0 < kw.n.getD (6 / 5)) :
    ∃ v, ohNonlinMod start opt kw = .ok v ∧ Between s e v ∧ (i = 0 → v = s) ∧
      (i = m → v = e) := by
  have hpm : 0 < m ^ kw.n.getD (6 / 5) := Real.rpow_pos_of_pos hm0 _
  refine ⟨e + (s - e) * ((m - i) ^ kw.n.getD (6 / 5) / m ^ kw.n.getD (6 / 5)), ?_, ?_, ?_, ?_⟩
  · unfold ohNonlinMod
    rw [startEnd_isEnd h1 h2 hs he]
    simp only [hi, hm]
    rw [if_neg (by push Not; exact ⟨by linarith, hm0.le⟩),
      if_neg (by push Not; exact ⟨fun _ => hn.le, fun h => absurd h hm0.ne'⟩)]
    rfl
  · apply between_lerp
    · exact div_nonneg (Real.rpow_nonneg (by linarith) _) hpm.le
    · rw [div_le_one hpm]
      exact Real.rpow_le_rpow (by linarith) (by linarith) hn.le
  · rintro rfl
    rw [sub_zero, div_self hpm.ne']
    ring
  · rintro rfl
    rw [sub_self, Real.zero_rpow hn.ne']
    simp

theorem C34_nonlin_monotone {start : Opts ℝ} {c1 c2 s e : ℝ} {opt : String} {kw : OHKw ℝ}
    (h1 : start.lookup "c1" = some c1) (h2 : start.lookup "c2" = some c2)
    (hs : start.lookup opt = some s) (he : IsEnd c1 c2 kw opt e) {i i' m : ℝ}
    (hm0 : 0 < m) (hii : i ≤ i') (him : i' ≤ m) (hn : 0 < kw.n.getD (6 / 5)) :
    ∃ v v', ohNonlinMod start opt { kw with iternow := some i, itermax := some m } = .ok v ∧
      ohNonlinMod start opt { kw with iternow := some i', itermax := some m } = .ok v' ∧
      (e ≤ s → v' ≤ v) ∧ (s ≤ e → v ≤ v') := by
  have hpm : 0 < m ^ kw.n.getD (6 / 5) := Real.rpow_pos_of_pos hm0 _
  have heq : ∀ j, j ≤ m → ohNonlinMod start opt { kw with iternow := some j, itermax := some m } =
      .ok (e + (s - e) * ((m - j) ^ kw.n.getD (6 / 5) / m ^ kw.n.getD (6 / 5))) := by
    intro j hj
    unfold ohNonlinMod
    rw [startEnd_isEnd h1 h2 hs (isEnd_kw he _ _)]
    simp only
    rw [if_neg (by push Not; exact ⟨by linarith, hm0.le⟩),
      if_neg (by push Not; exact ⟨fun _ => hn.le, fun h => absurd h hm0.ne'⟩)]
    rfl
  have hle : (m - i') ^ kw.n.getD (6 / 5) / m ^ kw.n.getD (6 / 5) ≤
      (m - i) ^ kw.n.getD (6 / 5) / m ^ kw.n.getD (6 / 5) := by
    apply div_le_div_of_nonneg_right _ hpm.le
    exact Real.rpow_le_rpow (by linarith) (by linarith) hn.le
  refine ⟨_, _, heq i (by linarith), heq i' him, ?_, ?_⟩
  · intro h
    have := mul_le_mul_of_nonneg_left hle (show 0 ≤ s - e by linarith)
    linarith
  · intro h
    have := mul_le_mul_of_nonpos_left hle (show s - e ≤ 0 by linarith)
    linarith

/-- The decaying factor of `exp_decay`. -/
theorem decay_factor {d2 i m : ℝ} (hd : 0 < d2) (hm : 0 < m) (hi : 0 ≤ i) (him : i ≤ m) :
    1 / (1 + d2) ≤ 1 / (1 + d2 * i / m) ∧ 1 / (1 + d2 * i / m) ≤ 1 := by
  have h0 : 0 ≤ d2 * i / m := div_nonneg (mul_nonneg hd.le hi) hm.le
  have h1 : d2 * i / m ≤ d2 := by
    rw [div_le_iff₀ hm]
    exact mul_le_mul_of_nonneg_left him hd.le
  constructor
  · exact one_div_le_one_div_of_le (by linarith) (by linarith)
  · rw [div_le_one (by linarith)]; linarith

theorem expDecay_eq {start : Opts ℝ} {c1 c2 s e : ℝ} {opt : String} {kw : OHKw ℝ}
    (h1 : start.lookup "c1" = some c1) (h2 : start.lookup "c2" = some c2)
    (hs : start.lookup opt = some s) (he : IsEnd c1 c2 kw opt e) {i m : ℝ}
    (hi : kw.iternow = some i) (hm : kw.itermax = some m) (hm0 : 0 < m) (hi0 : 0 ≤ i)
    (hd : 0 < kw.d2.getD 7) :
    ohExpDecay start opt kw = .ok ((s - e - kw.d1.getD (1 / 5)) *
      Real.exp (1 / (1 + kw.d2.getD 7 * i / m))) := by
  have h0 : 0 ≤ kw.d2.getD 7 * i / m := div_nonneg (mul_nonneg hd.le hi0) hm0.le
  unfold ohExpDecay
  rw [startEnd_isEnd h1 h2 hs he]
  simp only [hi, hm]
  rw [if_neg hm0.ne', if_neg (by linarith)]
  rfl

/-- C35.  With `d2 > 0` the value of `exp_decay` at iteration `i` of `m` is the offset
`start - end - d1` times a factor between `e^(1/(1+d2))` and `e`; the value is negative throughout
if `start - end < d1`. -/
theorem C35_range {start : Opts ℝ} {c1 c2 s e : ℝ} {opt : String} {kw : OHKw ℝ}
    (h1 : start.lookup "c1" = some c1) (h2 : start.lookup "c2" = some c2)
    (hs : start.lookup opt = some s) (he : IsEnd c1 c2 kw opt e) {i m : ℝ}
    (hi : kw.iternow = some i) (hm : kw.itermax = some m) (hm0 : 0 < m) (hi0 : 0 ≤ i)
    (him : i ≤ m) (hd : 0 < kw.d2.getD 7) :
    ∃ v, ohExpDecay start opt kw = .ok v ∧
      Between ((s - e - kw.d1.getD (1 / 5)) * Real.exp (1 / (1 + kw.d2.getD 7)))
        ((s - e - kw.d1.getD (1 / 5)) * Real.exp 1) v ∧
      (s - e < kw.d1.getD (1 / 5) → v < 0) ∧
      (i = 0 → v = (s - e - kw.d1.getD (1 / 5)) * Real.exp 1) := by
  obtain ⟨hf1, hf2⟩ := decay_factor hd hm0 hi0 him
  have hx1 := Real.exp_le_exp.2 hf1
  have hx2 := Real.exp_le_exp.2 hf2
  refine ⟨_, expDecay_eq h1 h2 hs he hi hm hm0 hi0 hd, ?_, ?_, ?_⟩
  · constructor
    · rcases le_total (s - e - kw.d1.getD (1 / 5)) 0 with h | h
      · exact min_le_of_right_le (mul_le_mul_of_nonpos_left hx2 h)
      · exact min_le_of_left_le (mul_le_mul_of_nonneg_left hx1 h)
    · rcases le_total (s - e - kw.d1.getD (1 / 5)) 0 with h | h
      · exact le_max_of_le_left (mul_le_mul_of_nonpos_left hx1 h)
      · exact le_max_of_le_right (mul_le_mul_of_nonneg_left hx2 h)
  · intro h
    exact mul_neg_of_neg_of_pos (by linarith) (Real.exp_pos _)
  · rintro rfl
    simp

/-- C35: monotone in the iteration number (in absolute value decreasing). -/
theorem C35_monotone {start : Opts ℝ} {c1 c2 s e : ℝ} {opt : String} {kw : OHKw ℝ}
    (h1 : start.lookup "c1" = some c1) (h2 : start.lookup "c2" = some c2)
    (hs : start.lookup opt = some s) (he : IsEnd c1 c2 kw opt e) {i i' m : ℝ}
    (hm0 : 0 < m) (hi0 : 0 ≤ i) (hii : i < i') (hd : 0 < kw.d2.getD 7) :
    ∃ v v', ohExpDecay start opt { kw with iternow := some i, itermax := some m } = .ok v ∧
      ohExpDecay start opt { kw with iternow := some i', itermax := some m } = .ok v' ∧
      (kw.d1.getD (1 / 5) < s - e → v' < v) ∧ (s - e < kw.d1.getD (1 / 5) → v < v') := by
  have hlt : Real.exp (1 / (1 + kw.d2.getD 7 * i' / m)) <
      Real.exp (1 / (1 + kw.d2.getD 7 * i / m)) := by
    apply Real.exp_lt_exp.2
    have h0 : 0 ≤ kw.d2.getD 7 * i / m := div_nonneg (mul_nonneg hd.le hi0) hm0.le
    apply one_div_lt_one_div_of_lt (by linarith)
    have : kw.d2.getD 7 * i / m < kw.d2.getD 7 * i' / m :=
      div_lt_div_of_pos_right (mul_lt_mul_of_pos_left hii hd) hm0
    linarith
  refine ⟨_, _, expDecay_eq h1 h2 hs (isEnd_kw he _ _) rfl rfl hm0 hi0 hd,
    expDecay_eq h1 h2 hs (isEnd_kw he _ _) rfl rfl hm0 (by linarith) hd, ?_, ?_⟩
  · intro h
    exact mul_lt_mul_of_pos_left hlt (by linarith)
  · intro h
    exact mul_lt_mul_of_neg_left hlt (by linarith)

/-- C35: with the default end value and default `d1`, `exp_decay` makes `c2` negative at every
iteration, whatever `c2` the user passes – even though start and end value coincide. -/
theorem C35_c2_negative {start : Opts ℝ} {c1 c2 : ℝ} (h1 : start.lookup "c1" = some c1)
    (h2 : start.lookup "c2" = some c2) {i m : ℝ} (hm0 : 0 < m) (hi0 : 0 ≤ i) (him : i ≤ m) :
    ∃ v, ohExpDecay start "c2" { iternow := some i, itermax := some m } = .ok v ∧ v < 0 := by
  obtain ⟨v, hv, -, hneg, -⟩ := C35_range (kw := { iternow := some i, itermax := some m }) h1 h2 h2
    (.c2 (by simp)) rfl rfl hm0 hi0 him (by norm_num)
  exact ⟨v, hv, hneg (by norm_num)⟩

/-- Non-vacuity of the hypotheses of C34 and C35. -/
example : ([("c1", 1 / 2), ("c2", 3 / 10), ("w", 9 / 10)] : Opts ℝ).lookup "w" = some (9 / 10) ∧
    IsEnd (1 / 2 : ℝ) (3 / 10) { iternow := some 3, itermax := some 10 } "w" (2 / 5) :=
  ⟨by simp [List.lookup], .w (by simp)⟩

/-! ### The options in use during a run -/

section
variable {n d : Nat} {K : Type} [Field K] [LinearOrder K] [Transc K] [FloorRing K]

/-- The options are those the user passed, or the handler's answer for *them* at some iteration. -/
def OptionsFromStart (cfg : Config n d K) (o : Opts K) : Prop :=
  o = cfg.options ∨ ∃ (i iters : Nat) (u : String → K), i < iters ∧
    ohCall cfg.ohStrategy cfg.options { iternow := some (i : K), itermax := some (iters : K) } u =
      .ok o

/-- C33, no drift: in every reachable state the options in use are computed from the constructor's
options for a single iteration number, however many iterations and calls have gone before. -/
theorem C33_no_drift (cfg : Config n d K) (s : Opt n d K) (h : Reachable cfg s) :
    OptionsFromStart cfg s.swarm.options := by
  refine reachable_inv cfg (fun s => OptionsFromStart cfg s.swarm.options) ?_ ?_ s h
  · intro r sw t a b p hsw
    exact Or.inl (fresh_reachable_init cfg r sw hsw).2.2.2.2
  · intro ev iters nproc env s hs
    -- the loop keeps the invariant while `i + m ≤ iters`
    have hmove : ∀ r i (s : Opt n d K), i < iters → OptionsFromStart cfg s.swarm.options →
        OptionsFromStart cfg (moveSwarm cfg r iters i s).1.swarm.options := by
      intro r i s hi hs
      have hco : ∀ o, callOptions cfg iters i r s.swarm = .ok o → OptionsFromStart cfg o := by
        intro o ho
        unfold callOptions at ho
        split at ho
        · cases ho; exact hs
        · exact Or.inr ⟨i, iters, r.oh, hi, ho⟩
      unfold moveSwarm
      split
      · exact hs
      · next o ho =>
        simp only []
        split
        · exact hco o ho
        · split <;> exact hco o ho
    have hloop : ∀ m i q (s : Opt n d K), i + m ≤ iters → OptionsFromStart cfg s.swarm.options →
        OptionsFromStart cfg (loop cfg ev env iters m i q s).1.swarm.options := by
      intro m
      induction m with
      | zero => intro i q s _ hs; exact hs
      | succ m ih =>
        intro i q s hi hs
        have hc := iterate_cases cfg (ev i) (env i) iters i q s
        rw [loop]
        generalize iterate cfg (ev i) (env i) iters i q s = o at hc ⊢
        obtain ⟨s1, e | f⟩ := o
        · simp only at hc ⊢
          cases hc with
          | evalError e h' => exact hs
          | gbestError c t e h' hg => exact hs
          | moveError c t g _ e h' hg hns hm =>
            have := hmove (env i) i (recordBest t g (recordEval c s)) (by omega) hs
            rw [hm] at this
            exact this
        · simp only at hc
          cases hc with
          | stop c t g h' hg hi' hq => exact hs
          | moved c t g _ h' hg hns hm =>
            have := hmove (env i) i (recordBest t g (recordEval c s)) (by omega) hs
            rw [hm] at this
            exact ih _ _ _ (by omega) this
    have hl := hloop iters 0 [] (startState cfg nproc s) (by omega) hs
    have hc := optimize_cases cfg ev iters nproc env s
    generalize (optimize cfg ev iters nproc env s).1 = s' at hc ⊢
    generalize (optimize cfg ev iters nproc env s).2 = o at hc
    cases hc with
    | badPool h => exact hs
    | loopError s1 e hp h => rw [h] at hl; exact hl
    | finishError s1 e hp h hf => rw [h] at hl; exact hl
    | done s1 r hp h hf => rw [h] at hl; exact hl

/-- C33: without strategies, the options never change. -/
theorem C33_no_strategy (cfg : Config n d K) (hoh : cfg.ohStrategy = []) (s : Opt n d K)
    (h : Reachable cfg s) : s.swarm.options = cfg.options := by
  rcases C33_no_drift cfg s h with h | ⟨i, iters, u, -, h⟩
  · exact h
  · rw [hoh] at h
    simp only [ohCall, List.isEmpty_nil, if_true, Except.ok.injEq] at h
    exact h.symm

/-- C33: the keys never change. -/
theorem C33_run_keys (cfg : Config n d K) (s : Opt n d K) (h : Reachable cfg s) :
    s.swarm.options.map Prod.fst = cfg.options.map Prod.fst := by
  rcases C33_no_drift cfg s h with h | ⟨i, iters, u, -, h⟩
  · rw [h]
  · exact (C33_keys_and_values _ _ _ _ _ h).1

/-- C34 in a run: under `lin_variation` the inertia weight in use is always between the start value
and 0.4. -/
theorem C34_run [IsStrictOrderedRing K] (cfg : Config n d K)
    (hst : cfg.ohStrategy.lookup "w" = some "lin_variation") {c1 c2 w : K}
    (h1 : cfg.options.lookup "c1" = some c1) (h2 : cfg.options.lookup "c2" = some c2)
    (hw : cfg.options.lookup "w" = some w) (s : Opt n d K) (h : Reachable cfg s) :
    ∃ v, s.swarm.options.lookup "w" = some v ∧ Between w (2 / 5) v := by
  rcases C33_no_drift cfg s h with h | ⟨i, iters, u, hi, h⟩
  · exact ⟨w, by rw [h, hw], min_le_left _ _, le_max_left _ _⟩
  · have hs := (C33_keys_and_values _ _ _ _ _ h).2
    obtain ⟨v, hv, -, -, hval⟩ := forall₂_lookup hs (fun a b h => h.1) hw
    have hval := hval _ hst
    obtain ⟨v', hv', hb, -⟩ := C34_lin_between (kw :=
      { iternow := some (i : K), itermax := some (iters : K) }) h1 h2 hw (.w (by simp)) rfl rfl
      (by exact_mod_cast (by omega : 0 < iters)) (by exact_mod_cast Nat.zero_le i)
      (by exact_mod_cast hi.le)
    have heq : ohLinVariation cfg.options "w"
        { iternow := some (i : K), itermax := some (iters : K) } = .ok v := by
      simpa [ohStrategy] using hval
    rw [heq] at hv'
    cases hv'
    exact ⟨v, hv, hb⟩

end

/-- Non-vacuity: a run with `lin_variation` on `w`. -/
example : (match construct { Ex.gcfg 2 1 with ohStrategy := [("w", "lin_variation")] }
      (Ex.init 2 1) (Ex.init 2 1) with
    | .ok s => match optimize { Ex.gcfg 2 1 with ohStrategy := [("w", "lin_variation")] }
        (Ex.sphere 2 1) 5 none (fun _ => Ex.draw 2 1) s with
      | (s', .ok _) => decide (s'.swarm.options = [("c1", 1 / 2), ("c2", 1 / 3), ("w", 21 / 50)])
      | _ => false
    | _ => false) = true := by decide +kernel

end PySwarms
