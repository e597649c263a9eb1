import Verif.Lemmas.Ieee
import Verif.Props.Rounding
import Verif.Examples

/-!
# C94: overflow

A GlobalBestPSO in float64 arithmetic with infinities and `nan` (Model/Ieee.lean).  With the
boundary strategies `nearest`, `random` and `intermediate` every position the objective sees
consists of numbers inside the bounds, even when velocities have overflowed to `inf`.  With the
default `periodic` this needs a velocity clamp: without one an overflowing velocity makes the
coordinate `nan`.  The same holds of `shrink`, and `reflective` does not come back.
-/

set_option linter.unusedSectionVars false

namespace PySwarms

variable {n d : Nat}

/-! ## Specification -/

/-- No entry is `nan`. -/
def NanFree {K : Type} (x : Mat n d (XR K)) : Prop := ∀ i j, x i j ≠ .nan

/-- All entries are numbers inside the bounds. -/
def InsideX (b : Bounds d ℚ) (x : Mat n d (XR ℚ)) : Prop :=
  ∀ i j, ∃ y, x i j = .fin y ∧ b.1 j ≤ y ∧ y ≤ b.2 j

/-- Bounds that are doubles of moderate size (`2^1000` is about `10^301`). -/
def ModerateBounds (b : Bounds d ℚ) : Prop :=
  DoubleBounds b ∧ ∀ j, |b.1 j| ≤ 2 ^ 1000 ∧ |b.2 j| ≤ 2 ^ 1000

/-- The draws of a call: uniform samples. -/
def CallX.Samples (c : CallX n d ℚ) : Prop :=
  ∀ t, (c.env t).bh.Samples ∧ ∀ i j, IsSample ((c.env t).r1 i j) ∧ IsSample ((c.env t).r2 i j)

/-- The coefficients `c1` and `c2` used in a call are at most `2^20`. -/
def CallX.ModerateOptions (c : CallX n d ℚ) : Prop :=
  ∀ t o, c.oh t = .ok o → ∀ x, (o.lookup "c1" = some x ∨ o.lookup "c2" = some x) → |x| ≤ 2 ^ 20

/-- The inertia is never zero. -/
def CallX.Inertia (c : CallX n d ℚ) : Prop :=
  ∀ t o, c.oh t = .ok o → ∀ w, o.lookup "w" = some w → w ≠ 0

/-- The states of a GlobalBestPSO constructed with an initial position in the bounds, after any number
of calls, each of which may have returned or raised. -/
inductive RunsX (cfg : Config n d ℚ) (C : CallX n d ℚ → Prop) : OptX n d ℚ → Prop
  | constructed (init : Mat n d (XR ℚ)) (u : Mat n d ℚ) (hu : ∀ i j, IsSample (u i j)) (s : OptX n d ℚ)
      (h : constructX fpu64 cfg init u = .ok s) : RunsX cfg C s
  | called (s : OptX n d ℚ) (h : RunsX cfg C s) (c : CallX n d ℚ) (hc : C c) (iters : Nat) :
      RunsX cfg C (optimizeX fpu64 cfg c iters s).1

/-! ## Rounding of moderate numbers -/

theorem isDouble_pow (k : Nat) : IsDouble (2 ^ k) := ⟨1, k, by norm_num, by omega, by simp⟩

theorem rnd_small {x : ℚ} {k : Nat} (hk : k ≤ 1023) (h : |x| ≤ 2 ^ k) :
    fpu64.rnd x = .fin (f64 x) ∧ |f64 x| ≤ 2 ^ k := by
  have h1 : f64 ((2 : ℚ) ^ k) = 2 ^ k := f64_of_isDouble (isDouble_pow k)
  have h2 : |f64 x| ≤ 2 ^ k := by
    obtain ⟨h3, h4⟩ := abs_le.1 h
    have h5 := f64_mono h3
    have h6 := f64_mono h4
    rw [f64_neg, h1] at h5
    rw [h1] at h6
    exact abs_le.2 ⟨h5, h6⟩
  refine ⟨fpu64_fin (lt_of_le_of_lt h2 ?_), h2⟩
  exact pow_lt_pow_right₀ (by norm_num) (by omega)

theorem isSample_range {u : ℚ} (h : IsSample u) : 0 ≤ u ∧ u ≤ 1 := by
  obtain ⟨k, hk, rfl⟩ := h
  refine ⟨by positivity, ?_⟩
  rw [div_le_one (by positivity)]
  exact_mod_cast hk.le

theorem abs_mul_sample {a u : ℚ} {M : ℚ} (ha : |a| ≤ M) (hu : IsSample u) : |a * u| ≤ M := by
  obtain ⟨h0, h1⟩ := isSample_range hu
  rw [abs_mul, abs_of_nonneg h0]
  exact le_trans (mul_le_of_le_one_right (abs_nonneg a) h1) ha

theorem abs_inside {b : Bounds d ℚ} (hb : ModerateBounds b) {j : Fin d} {y : ℚ}
    (h : b.1 j ≤ y ∧ y ≤ b.2 j) : |y| ≤ 2 ^ 1000 := by
  obtain ⟨h1, h2⟩ := hb.2 j
  rw [abs_le] at h1 h2 ⊢
  exact ⟨h1.1.trans h.1, h.2.trans h2.2⟩

theorem add_pow_le {x y : ℚ} {k : Nat} (hx : |x| ≤ 2 ^ k) (hy : |y| ≤ 2 ^ k) :
    |x + y| ≤ 2 ^ (k + 1) ∧ |x - y| ≤ 2 ^ (k + 1) := by
  have h : (2 : ℚ) ^ (k + 1) = 2 ^ k + 2 ^ k := by ring
  rw [h]
  exact ⟨(abs_add_le x y).trans (add_le_add hx hy), (abs_sub x y).trans (add_le_add hx hy)⟩

/-- One attraction term is a number. -/
theorem attraction_fin {b : Bounds d ℚ} (hb : ModerateBounds b) {j : Fin d} {c u p x : ℚ}
    (hc : |c| ≤ 2 ^ 20) (hu : IsSample u) (hp : b.1 j ≤ p ∧ p ≤ b.2 j) (hx : b.1 j ≤ x ∧ x ≤ b.2 j) :
    ∃ y, fpu64.mul (fpu64.mul (.fin c) (.fin u)) (fpu64.sub (.fin p) (.fin x)) = .fin y := by
  rw [Fpu.mul_fin, Fpu.sub_fin]
  obtain ⟨h1, h2⟩ := rnd_small (by norm_num) (abs_mul_sample hc hu)
  obtain ⟨h3, h4⟩ := rnd_small (k := 1001) (by norm_num)
    (add_pow_le (abs_inside hb hp) (abs_inside hb hx)).2
  rw [h1, h3, Fpu.mul_fin]
  refine ⟨_, (rnd_small (k := 1021) (by norm_num) ?_).1⟩
  rw [abs_mul]
  have h : (2 : ℚ) ^ 1021 = 2 ^ 20 * 2 ^ 1001 := by rw [← pow_add]
  rw [h]
  exact mul_le_mul h2 h4 (abs_nonneg _) (by positivity)

/-! ## Handlers -/

theorem redrawX_inside {b : Bounds d ℚ} (hb : ModerateBounds b) {u : Vec d ℚ} (j : Fin d)
    (hu : IsSample (u j)) : ∃ y, redrawX fpu64 b u j = .fin y ∧ b.1 j ≤ y ∧ y ≤ b.2 j := by
  unfold redrawX
  obtain ⟨h1, h2⟩ := hb.2 j
  obtain ⟨h3, h4⟩ := rnd_small (k := 1001) (by norm_num) (add_pow_le h2 h1).2
  obtain ⟨h5, h6⟩ := rnd_small (k := 1001) (by norm_num) (abs_mul_sample h4 hu)
  have h1' : |b.1 j| ≤ 2 ^ 1001 := h1.trans (pow_le_pow_right₀ (by norm_num) (by norm_num))
  obtain ⟨h7, h8⟩ := rnd_small (k := 1002) (by norm_num) (add_pow_le h6 h1').1
  rw [Fpu.sub_fin, h3, Fpu.mul_fin, h5, Fpu.add_fin, h7]
  exact ⟨_, rfl, redraw_inside hb.1 j hu⟩

theorem halfX_inside {b : Bounds d ℚ} (hb : ModerateBounds b) (j : Fin d) {m e : ℚ}
    (hm : b.1 j ≤ m ∧ m ≤ b.2 j) (he : b.1 j ≤ e ∧ e ≤ b.2 j) :
    ∃ y, fpu64.mul (.fin (1 / 2)) (fpu64.add (.fin m) (.fin e)) = .fin y ∧
      b.1 j ≤ y ∧ y ≤ b.2 j := by
  obtain ⟨h3, h4⟩ := rnd_small (k := 1001) (by norm_num)
    (add_pow_le (abs_inside hb hm) (abs_inside hb he)).1
  rw [Fpu.add_fin, h3, Fpu.mul_fin]
  have h5 : |1 / 2 * f64 (m + e)| ≤ 2 ^ 1001 := by
    rw [abs_mul]
    have : |(1 / 2 : ℚ)| = 1 / 2 := by norm_num
    rw [this]
    have h0 := abs_nonneg (f64 (m + e))
    generalize (2 : ℚ) ^ 1001 = M at h4 ⊢
    linarith
  rw [(rnd_small (by norm_num) h5).1]
  exact ⟨_, rfl, half_inside hb.1 j hm he⟩

theorem isLowX_fin {b : Bounds d ℚ} {x : Mat n d (XR ℚ)} {i : Fin n} {j : Fin d} {y : ℚ}
    (h : x i j = .fin y) : isLowX b x i j = decide (y < b.1 j) := by
  unfold isLowX; rw [h]; rfl

theorem isHighX_fin {b : Bounds d ℚ} {x : Mat n d (XR ℚ)} {i : Fin n} {j : Fin d} {y : ℚ}
    (h : x i j = .fin y) : isHighX b x i j = decide (b.2 j < y) := by
  unfold isHighX; rw [h]; rfl

/-- An entry that is not `nan` and not out of bounds is a number in the bounds. -/
theorem inside_of_not_out {b : Bounds d ℚ} {x : Mat n d (XR ℚ)} {i : Fin n} {j : Fin d}
    (hx : x i j ≠ .nan) (h1 : isLowX b x i j = false) (h2 : isHighX b x i j = false) :
    ∃ y, x i j = .fin y ∧ b.1 j ≤ y ∧ y ≤ b.2 j := by
  unfold isLowX at h1
  unfold isHighX at h2
  cases h : x i j with
  | nan => exact absurd h hx
  | pinf => rw [h] at h2; simp [XR.lt] at h2
  | ninf => rw [h] at h1; simp [XR.lt] at h1
  | fin y =>
    rw [h] at h1 h2
    simp only [XR.lt, decide_eq_false_iff_not, not_lt] at h1 h2
    exact ⟨y, rfl, h1, h2⟩

theorem not_rowX {b : Bounds d ℚ} {x : Mat n d (XR ℚ)} {i : Fin n}
    (h : (rowLowX b x i) = false) (j : Fin d) : isLowX b x i j = false := by
  unfold rowLowX at h
  rw [List.any_eq_false] at h
  simpa using h j (List.mem_finRange j)

theorem not_rowHX {b : Bounds d ℚ} {x : Mat n d (XR ℚ)} {i : Fin n}
    (h : (rowHighX b x i) = false) (j : Fin d) : isHighX b x i j = false := by
  unfold rowHighX at h
  rw [List.any_eq_false] at h
  simpa using h j (List.mem_finRange j)

/-- **C94** (handlers).  Whatever the positions, infinities included, as long as there is no `nan`:
`nearest`, `random` and `intermediate` return numbers inside the bounds. -/
theorem C94_handlers (strategy : String) (hs : strategy ∈ ["nearest", "random", "intermediate"])
    (b : Bounds d ℚ) (hb : ModerateBounds b) (r : BHDraw d ℚ) (hr : r.Samples)
    (mem x : Mat n d (XR ℚ)) (hm : InsideX b mem) (hx : NanFree x) :
    ∃ x', (bhCallX fpu64 strategy (some mem) b r x).2 = .ok x' ∧ InsideX b x' := by
  have hlt : ∀ j, b.1 j ≤ b.2 j := fun j => (hb.1.1 j).le
  simp only [List.mem_cons, List.not_mem_nil, or_false] at hs
  rcases hs with rfl | rfl | rfl
  · refine ⟨_, rfl, fun i j => ?_⟩
    unfold bhNearestX
    dsimp only
    cases h2 : isHighX b x i j with
    | true => exact ⟨b.2 j, by simp, hlt j, le_refl _⟩
    | false =>
      cases h1 : isLowX b x i j with
      | true => exact ⟨b.1 j, by simp, le_refl _, hlt j⟩
      | false => simpa using inside_of_not_out (hx i j) h1 h2
  · refine ⟨_, rfl, fun i j => ?_⟩
    unfold bhRandomX
    dsimp only
    cases h1 : rowLowX b x i with
    | true => simpa using redrawX_inside hb j (hr j).2
    | false =>
      cases h2 : rowHighX b x i with
      | true => simpa using redrawX_inside hb j (hr j).1
      | false => simpa using inside_of_not_out (hx i j) (not_rowX h1 j) (not_rowHX h2 j)
  · refine ⟨_, rfl, fun i j => ?_⟩
    obtain ⟨m, hm1, hm2⟩ := hm i j
    dsimp only
    rw [hm1]
    cases h2 : isHighX b x i j with
    | true => simpa using halfX_inside hb j hm2 ⟨hlt j, le_refl _⟩
    | false =>
      cases h1 : isLowX b x i j with
      | true => simpa using halfX_inside hb j hm2 ⟨le_refl _, hlt j⟩
      | false => simpa using inside_of_not_out (hx i j) h1 h2

/-- The memory after a call is the old one or the result. -/
theorem bhCallX_mem {strategy : String} {mem : Option (Mat n d (XR ℚ))} {b : Bounds d ℚ}
    {r : BHDraw d ℚ} {x : Mat n d (XR ℚ)} :
    (bhCallX fpu64 strategy mem b r x).1 = mem ∨
      ∃ x', (bhCallX fpu64 strategy mem b r x).2 = .ok x' ∧
        (bhCallX fpu64 strategy mem b r x).1 = some x' := by
  unfold bhCallX bhShrinkX bhIntermediateX
  cases mem with
  | none => split_ifs <;> first | exact .inl rfl | exact .inr ⟨_, rfl, rfl⟩
  | some m =>
    dsimp only
    split_ifs <;> first | exact .inl rfl | exact .inr ⟨_, rfl, rfl⟩

theorem f64_diff_pos {b : Bounds d ℚ} (hb : DoubleBounds b) (j : Fin d) :
    0 < f64 (b.2 j - b.1 j) := by
  obtain ⟨⟨m1, e1, -, he1, h1⟩, ⟨m2, e2, -, he2, h2⟩⟩ := hb.2 j
  have hlt := hb.1 j
  have key : ∀ (m e : ℤ), -1074 ≤ e → ∃ k : ℤ, (m : ℚ) * 2 ^ e = k * 2 ^ (-1074 : ℤ) := by
    intro m e he
    refine ⟨m * 2 ^ (e + 1074).toNat, ?_⟩
    have : (2 : ℚ) ^ e = 2 ^ (e + 1074).toNat * 2 ^ (-1074 : ℤ) := by
      rw [← zpow_natCast, ← zpow_add₀ (by norm_num)]
      congr 1
      omega
    rw [this]
    push_cast
    ring
  obtain ⟨k1, hk1⟩ := key m1 e1 he1
  obtain ⟨k2, hk2⟩ := key m2 e2 he2
  rw [h1, h2, hk1, hk2] at hlt ⊢
  have hp : (0 : ℚ) < 2 ^ (-1074 : ℤ) := zpow_pos (by norm_num) _
  have hk : k1 < k2 := by
    have := lt_of_mul_lt_mul_right hlt hp.le
    exact_mod_cast this
  have hd : IsDouble ((2 : ℚ) ^ (-1074 : ℤ)) := ⟨1, -1074, by norm_num, le_refl _, by simp⟩
  have hle : (2 : ℚ) ^ (-1074 : ℤ) ≤ k2 * 2 ^ (-1074 : ℤ) - k1 * 2 ^ (-1074 : ℤ) := by
    rw [← sub_mul]
    have : (1 : ℚ) ≤ k2 - k1 := by
      have : k1 + 1 ≤ k2 := hk
      have : ((k1 + 1 : ℤ) : ℚ) ≤ k2 := by exact_mod_cast this
      push_cast at this
      linarith
    nlinarith
  exact lt_of_lt_of_le hp (le_fl_of_le (f64_of_isDouble hd) hle)

/-- `periodic` on numbers of moderate size. -/
theorem periodicX_inside {b : Bounds d ℚ} (hb : ModerateBounds b) (x : Mat n d (XR ℚ))
    (hx : ∀ i j, ∃ y, x i j = .fin y ∧ |y| ≤ 2 ^ 1004) : InsideX b (bhPeriodicX fpu64 b x) := by
  intro i j
  obtain ⟨y, hy, hy2⟩ := hx i j
  obtain ⟨h1, h2⟩ := hb.2 j
  have hup : ∀ {z : ℚ} {k : Nat}, k ≤ 1004 → |z| ≤ 2 ^ k → |z| ≤ 2 ^ 1004 := fun hk hz =>
    hz.trans (pow_le_pow_right₀ (by norm_num) hk)
  have hlt := hb.1.1 j
  have hpos := f64_diff_pos hb.1 j
  obtain ⟨h3, h4⟩ := rnd_small (k := 1001) (by norm_num) (add_pow_le h2 h1).2
  have hs : XR.abs (fpu64.sub (.fin (b.2 j)) (.fin (b.1 j))) = .fin |f64 (b.2 j - b.1 j)| := by
    rw [Fpu.sub_fin, h3]
    simp only [XR.abs]
    rw [if_neg (not_lt.2 hpos.le), abs_of_pos hpos]
  have hne : |f64 (b.2 j - b.1 j)| ≠ 0 := (abs_pos.2 hpos.ne').ne'
  have hmod : ∀ a : ℚ, 0 ≤ a → |a| ≤ 2 ^ 1005 →
      ∃ z, fpu64.mod (fpu64.rnd a) (.fin |f64 (b.2 j - b.1 j)|) = .fin z ∧
        0 ≤ z ∧ z ≤ b.2 j - b.1 j := by
    intro a ha ha2
    obtain ⟨h5, h6⟩ := rnd_small (k := 1005) (by norm_num) ha2
    obtain ⟨h7, h8⟩ := wrap_inside hb.1 j ha hne
    rw [h5]
    have h9 : fpu64.mod (.fin (f64 a)) (.fin |f64 (b.2 j - b.1 j)|) =
        fpu64.rnd (npMod (f64 a) |f64 (b.2 j - b.1 j)|) := by
      unfold Fpu.mod XR.mod
      simp only [hne, if_false]
      rfl
    have h10 : |f64 (npMod (f64 a) |f64 (b.2 j - b.1 j)|)| < 2 ^ 1024 := by
      rw [abs_of_nonneg h7]
      refine lt_of_le_of_lt h8 (lt_of_le_of_lt (le_abs_self _)
        (lt_of_le_of_lt (add_pow_le h2 h1).2 (pow_lt_pow_right₀ (by norm_num) (by norm_num))))
    rw [h9, fpu64_fin h10]
    exact ⟨_, rfl, h7, h8⟩
  unfold bhPeriodicX
  dsimp only
  rw [isLowX_fin hy, isHighX_fin hy, hs, hy]
  by_cases hlow : y < b.1 j
  · have hnh : ¬ b.2 j < y := by linarith
    simp only [hlow, hnh, decide_true, decide_false, if_true, Bool.false_eq_true, if_false]
    rw [Fpu.sub_fin]
    obtain ⟨z, hz, hz1, hz2⟩ := hmod (b.1 j - y) (by linarith)
      (add_pow_le (hup (by norm_num) h1) hy2).2
    rw [hz, Fpu.sub_fin]
    have hin : b.1 j ≤ b.2 j - z ∧ b.2 j - z ≤ b.2 j := ⟨by linarith, by linarith⟩
    rw [(rnd_small (by norm_num) (abs_inside hb hin)).1]
    exact ⟨_, rfl, le_fl_of_le (fl_lb hb.1 j) hin.1, fl_le_of_le (fl_ub hb.1 j) hin.2⟩
  · by_cases hhigh : b.2 j < y
    · simp only [hlow, hhigh, decide_true, decide_false, if_true, Bool.false_eq_true, if_false]
      rw [Fpu.sub_fin]
      obtain ⟨z, hz, hz1, hz2⟩ := hmod (y - b.2 j) (by linarith)
        (add_pow_le hy2 (hup (by norm_num) h2)).2
      rw [hz, Fpu.add_fin]
      have hin : b.1 j ≤ b.1 j + z ∧ b.1 j + z ≤ b.2 j := ⟨by linarith, by linarith⟩
      rw [(rnd_small (by norm_num) (abs_inside hb hin)).1]
      exact ⟨_, rfl, le_fl_of_le (fl_lb hb.1 j) hin.1, fl_le_of_le (fl_ub hb.1 j) hin.2⟩
    · simp only [hlow, hhigh, decide_false, Bool.false_eq_true, if_false]
      exact ⟨y, rfl, not_lt.1 hlow, not_lt.1 hhigh⟩

/-! ## Runs -/

/-- Between the calls. -/
structure GoodX (b : Bounds d ℚ) (V : XR ℚ → Prop) (s : OptX n d ℚ) : Prop where
  pos : InsideX b s.swarm.position
  vel : ∀ i j, V (s.swarm.velocity i j)
  pbest : InsideX b s.swarm.pbestPos
  best : ∀ g, s.swarm.bestPos = some g → ∀ j, ∃ y, g j = .fin y ∧ b.1 j ≤ y ∧ y ≤ b.2 j
  evals : ∀ e ∈ s.evals, InsideX b e.1

/-- Between the iterations. -/
structure GoodLoopX (b : Bounds d ℚ) (V : XR ℚ → Prop) (s : OptX n d ℚ) : Prop
    extends GoodX b V s where
  bh : ∃ m, s.bhMem = some m ∧ InsideX b m
  vh : ∃ m, s.vhMem = some m ∧ InsideX b m

/-- What has to be known of the velocities `V` allows. -/
structure VelocitiesX (cfg : Config n d ℚ) (b : Bounds d ℚ) (C : CallX n d ℚ → Prop)
    (V : XR ℚ → Prop) : Prop where
  inertia : ∀ c, C c → ∀ t o, c.oh t = .ok o → ∀ w, o.lookup "w" = some w → ∀ v, V v →
    fpu64.mul (.fin w) v ≠ .nan
  handler : ∀ (m p v v' : Mat n d (XR ℚ)) (vm : Option (Mat n d (XR ℚ))), InsideX b m →
    InsideX b p → NanFree v →
    vhCallX fpu64 cfg.vhStrategy (some m) cfg.clamp cfg.bounds p v = (vm, .ok v') →
    ∀ i j, V (v' i j)
  move : ∀ (x v m x' : Mat n d (XR ℚ)) (r : BHDraw d ℚ), InsideX b x → (∀ i j, V (v i j)) →
    InsideX b m → r.Samples →
    (bhCallX fpu64 cfg.bhStrategy (some m) b r (fun i j => fpu64.add (x i j) (v i j))).2 = .ok x' →
    InsideX b x'

theorem tempVelocityX_nanFree {b : Bounds d ℚ} (hb : ModerateBounds b) {s : SwarmX n d ℚ}
    (h1 : InsideX b s.position) (h2 : InsideX b s.pbestPos)
    (h3 : ∀ g, s.bestPos = some g → ∀ j, ∃ y, g j = .fin y ∧ b.1 j ≤ y ∧ y ≤ b.2 j)
    {c1 c2 w : ℚ} (hc1 : |c1| ≤ 2 ^ 20) (hc2 : |c2| ≤ 2 ^ 20) {r1 r2 : Mat n d ℚ}
    (hr : ∀ i j, IsSample (r1 i j) ∧ IsSample (r2 i j))
    (hw : ∀ i j, fpu64.mul (.fin w) (s.velocity i j) ≠ .nan) :
    NanFree (tempVelocityX fpu64 c1 c2 w r1 r2 s) := by
  intro i j
  obtain ⟨x, hx, hx'⟩ := h1 i j
  obtain ⟨p, hp, hp'⟩ := h2 i j
  obtain ⟨g, hg, hg'⟩ : ∃ g, s.target i j = .fin g ∧ b.1 j ≤ g ∧ g ≤ b.2 j := by
    unfold SwarmX.target
    split
    · next g hg => exact h3 g hg j
    · exact ⟨x, hx, hx'⟩
  unfold tempVelocityX
  dsimp only
  rw [hg, hx, hp]
  obtain ⟨y1, hy1⟩ := attraction_fin hb hc1 (hr i j).1 hp' hx'
  obtain ⟨y2, hy2⟩ := attraction_fin hb hc2 (hr i j).2 hg' hx'
  rw [hy1, hy2]
  exact fpu64_lawful.add_fin_ne_nan (fpu64_lawful.add_fin_ne_nan (hw i j) _) _

theorem insideX_single {b : Bounds d ℚ} {x : Mat n d (XR ℚ)} (h : InsideX b x) (i : Fin n)
    (g : Vec d (XR ℚ)) (hg : some (x i) = some g) (j : Fin d) :
    ∃ y, g j = .fin y ∧ b.1 j ≤ y ∧ y ≤ b.2 j := by
  cases hg
  exact h i j

theorem goodLoopX_iterate {cfg : Config n d ℚ} {b : Bounds d ℚ} (hb : ModerateBounds b)
    (hcb : cfg.bounds = some b) {C : CallX n d ℚ → Prop} {V : XR ℚ → Prop}
    (hV : VelocitiesX cfg b C V) {c : CallX n d ℚ} (hC : C c) (hs : c.Samples)
    (hm : c.ModerateOptions) (t : Nat) (q : List Bool) (s : OptX n d ℚ) (h : GoodLoopX b V s) :
    GoodLoopX b V (iterateX fpu64 cfg (c.ev t) (c.env t) (c.oh t) t q s).1 := by
  have heval : ∀ cost, GoodLoopX b V (recordEvalX cost s) := by
    intro cost
    refine ⟨⟨h.pos, h.vel, fun i j => ?_, h.best, fun e he => ?_⟩, h.bh, h.vh⟩
    · show ∃ y, (if XR.lt (cost i) (s.swarm.pbestCost i) then s.swarm.position i j
        else s.swarm.pbestPos i j) = .fin y ∧ _
      split
      · exact h.pos i j
      · exact h.pbest i j
    · simp only [recordEvalX, List.mem_append, List.mem_singleton] at he
      rcases he with he | rfl
      · exact h.evals e he
      · exact h.pos
  have hbest : ∀ (s : OptX n d ℚ) g, GoodLoopX b V s → starX s.swarm = some g →
      GoodLoopX b V (recordBestX g s) := by
    intro s g h hg
    refine ⟨⟨h.pos, h.vel, h.pbest, ?_, h.evals⟩, h.bh, h.vh⟩
    rcases starX_cases hg with rfl | ⟨i, -, -, rfl⟩
    · exact h.best
    · exact insideX_single h.pbest i
  have hmove : ∀ (s : OptX n d ℚ), GoodLoopX b V s →
      GoodLoopX b V (moveSwarmX fpu64 cfg (c.env t) (c.oh t) s).1 := by
    intro s h
    rcases moveSwarmX_cases fpu64 cfg (c.env t) (c.oh t) s with ⟨e, h1⟩ | ⟨o, ho, h2⟩
    · rw [h1]; exact h
    · obtain ⟨m, hm1, hm2⟩ := h.vh
      have hvm : ∀ vm y, computeVelocityX fpu64 o s.swarm cfg.clamp cfg.vhStrategy s.vhMem cfg.bounds
          (c.env t).r1 (c.env t).r2 = (vm, y) → ∃ m, vm = some m ∧ InsideX b m := by
        intro vm y hv
        have hh := computeVelocityX_mem (A := fpu64) (o := o) (s := s.swarm) (clamp := cfg.clamp)
          (strategy := cfg.vhStrategy) (mem := s.vhMem) (bounds := cfg.bounds) (r1 := (c.env t).r1)
          (r2 := (c.env t).r2)
        rw [hv] at hh
        rcases hh with hh | hh
        · exact ⟨m, by rw [← hm1]; exact hh, hm2⟩
        · exact ⟨_, hh, h.pos⟩
      rcases h2 with ⟨vm, e, hv, h3⟩ | ⟨vm, v, hv, h3⟩
      · rw [h3]
        exact ⟨⟨h.pos, h.vel, h.pbest, h.best, h.evals⟩, h.bh, hvm vm _ hv⟩
      · obtain ⟨c1, c2, w, hc1, hc2, hw, hcall⟩ := computeVelocityX_ok hv
        have hnan := tempVelocityX_nanFree hb h.pos h.pbest h.best (hm t o ho c1 (.inl hc1))
          (hm t o ho c2 (.inr hc2)) (fun i j => (hs t).2 i j)
          (fun i j => hV.inertia c hC t o ho w hw _ (h.vel i j))
        rw [hm1] at hcall
        have hvel := hV.handler m s.swarm.position _ v vm hm2 h.pos hnan hcall
        have hvm' := hvm vm _ hv
        obtain ⟨bm0, hbm, hbm2⟩ := h.bh
        rcases h3 with ⟨bm, e, hp, h4⟩ | ⟨bm, p, hp, h4⟩
        · rw [h4]
          refine ⟨⟨h.pos, hvel, h.pbest, h.best, h.evals⟩, ?_, hvm'⟩
          simp only [computePositionX, hcb] at hp
          have hmem := bhCallX_mem (strategy := cfg.bhStrategy) (mem := s.bhMem) (b := b)
            (r := (c.env t).bh)
            (x := fun i j => fpu64.add (s.swarm.position i j) (v i j))
          rw [hp] at hmem
          rcases hmem with hmem | ⟨x', hx', -⟩
          · exact ⟨bm0, by rw [← hbm]; exact hmem, hbm2⟩
          · cases hx'
        · rw [h4]
          simp only [computePositionX, hcb] at hp
          have hin := hV.move s.swarm.position v bm0 p (c.env t).bh h.pos hvel hbm2 (hs t).1
            (by rw [← hbm, hp])
          refine ⟨⟨hin, hvel, h.pbest, h.best, h.evals⟩, ?_, hvm'⟩
          have hmem := bhCallX_mem (strategy := cfg.bhStrategy) (mem := s.bhMem) (b := b)
            (r := (c.env t).bh)
            (x := fun i j => fpu64.add (s.swarm.position i j) (v i j))
          rw [hp] at hmem
          rcases hmem with hmem | ⟨x', hx', hx2⟩
          · exact ⟨bm0, by rw [← hbm]; exact hmem, hbm2⟩
          · cases hx'
            exact ⟨_, hx2, hin⟩
  rcases iterateX_cases fpu64 cfg (c.ev t) (c.env t) (c.oh t) t q s with
    ⟨e, -, h1⟩ | ⟨cost, -, ⟨-, h1⟩ | ⟨g, hg, h1 | ⟨s3, e, hm3, h1⟩ | ⟨s3, q', hm3, h1⟩⟩⟩
  · rw [h1]; exact h
  · rw [h1]; exact heval cost
  · rw [h1]; exact hbest _ g (heval cost) hg
  · rw [h1]
    have := hmove _ (hbest _ g (heval cost) hg)
    rw [hm3] at this
    exact this
  · rw [h1]
    have := hmove _ (hbest _ g (heval cost) hg)
    rw [hm3] at this
    exact this

theorem goodX_runs {cfg : Config n d ℚ} {b : Bounds d ℚ} (hb : ModerateBounds b)
    (hcb : cfg.bounds = some b) {C : CallX n d ℚ → Prop} {V : XR ℚ → Prop}
    (hV : VelocitiesX cfg b C V) (hC : ∀ c, C c → c.Samples ∧ c.ModerateOptions)
    (hinit : ∀ u : Mat n d ℚ, (∀ i j, IsSample (u i j)) → ∀ i j,
      V (fpu64.add (fpu64.mul (fpu64.sub (.fin ((cfg.clamp.getD (fun _ => 0, fun _ => 1)).2 j))
        (.fin ((cfg.clamp.getD (fun _ => 0, fun _ => 1)).1 j))) (.fin (u i j)))
        (.fin ((cfg.clamp.getD (fun _ => 0, fun _ => 1)).1 j))))
    {s : OptX n d ℚ} (h : RunsX cfg C s) : GoodX b V s := by
  induction h with
  | constructed init u hu s h =>
    unfold constructX at h
    simp only [hcb] at h
    split at h
    · next hin =>
      cases h
      have hpos : InsideX b init := by
        intro i j
        rw [Bool.and_eq_true, List.all_eq_true, List.all_eq_true] at hin
        have h1 := hin.1 i (List.mem_finRange i)
        have h2 := hin.2 i (List.mem_finRange i)
        rw [List.all_eq_true] at h1 h2
        have h1 := h1 j (List.mem_finRange j)
        have h2 := h2 j (List.mem_finRange j)
        cases hi : init i j with
        | nan => rw [hi] at h1; simp [XR.le, XR.isNan] at h1
        | pinf => rw [hi] at h2; simp [XR.le, XR.lt] at h2
        | ninf => rw [hi] at h1; simp [XR.le, XR.lt] at h1
        | fin y =>
          rw [hi] at h1 h2
          simp [XR.le, XR.lt, XR.isNan] at h1 h2
          exact ⟨y, rfl, h1, h2⟩
      exact ⟨hpos, hinit u hu, hpos, fun g hg => (by cases hg), fun e he => (by cases he)⟩
    · cases h
  | called s h c hc iters ih =>
    rw [optimizeX_fst]
    refine (loopX_inv (P := GoodLoopX b V) (fun t q s hs => goodLoopX_iterate hb hcb hV hc
      (hC c hc).1 (hC c hc).2 t q s hs) iters 0 [] _ ?_).toGoodX
    exact ⟨⟨ih.pos, ih.vel, ih.pbest, ih.best, ih.evals⟩, ⟨_, rfl, ih.pos⟩, ⟨_, rfl, ih.pos⟩⟩

theorem clampOptX_nanFree {c : Option (Clamp d ℚ)} {v : Mat n d (XR ℚ)} (h : NanFree v) :
    NanFree (clampOptX c v) := by
  intro i j
  unfold clampOptX
  split
  · exact h i j
  · unfold applyClampX
    dsimp only
    split_ifs
    · simp
    · simp
    · exact h i j

theorem vhCallX_nanFree {b : Bounds d ℚ} {strategy : String} {c : Option (Clamp d ℚ)}
    {bounds : Option (Bounds d ℚ)} {m p v v' : Mat n d (XR ℚ)} {vm : Option (Mat n d (XR ℚ))}
    (hm : InsideX b m) (hp : InsideX b p) (hv : NanFree v)
    (h : vhCallX fpu64 strategy (some m) c bounds p v = (vm, .ok v')) : NanFree v' := by
  unfold vhCallX at h
  split_ifs at h
  · cases h; exact clampOptX_nanFree hv
  · cases h
    refine clampOptX_nanFree fun i j => ?_
    obtain ⟨x, hx, -⟩ := hp i j
    obtain ⟨y, hy, -⟩ := hm i j
    rw [hx, hy]
    exact fpu64_lawful.sub_fin_fin_ne_nan x y
  · unfold vhInvertX at h
    cases bounds with
    | none => cases h
    | some b =>
      cases h
      have h1 : NanFree (fun i j => if rowLowX b p i then fpu64.mul (.fin (-(1 / 2))) (v i j)
          else v i j) := by
        intro i j
        dsimp only
        split
        · exact fpu64_lawful.mul_ne_nan (hv i j) (by norm_num)
        · exact hv i j
      refine clampOptX_nanFree fun i j => ?_
      dsimp only
      split
      · exact fpu64_lawful.mul_ne_nan (h1 i j) (by norm_num)
      · exact h1 i j
  · unfold vhZeroX at h
    cases bounds with
    | none => cases h
    | some b =>
      cases h
      intro i j
      dsimp only
      split_ifs
      · simp
      · simp
      · exact hv i j
  · cases h

/-- A clamp of moderate size, if any. -/
def ModerateClamp (c : Option (Clamp d ℚ)) : Prop :=
  ∀ c', c = some c' → ∀ j, |c'.1 j| ≤ 2 ^ 1000 ∧ |c'.2 j| ≤ 2 ^ 1000

theorem moderate_getD {c : Option (Clamp d ℚ)} (h : ModerateClamp c) (j : Fin d) :
    |(c.getD (fun _ => 0, fun _ => 1)).1 j| ≤ 2 ^ 1000 ∧
      |(c.getD (fun _ => 0, fun _ => 1)).2 j| ≤ 2 ^ 1000 := by
  cases c with
  | none =>
    have : (1 : ℚ) ≤ 2 ^ 1000 := one_le_pow₀ (by norm_num)
    simp only [Option.getD_none, abs_zero, abs_one]
    exact ⟨by positivity, this⟩
  | some c => exact h c rfl j

theorem initVelocityX {c : Option (Clamp d ℚ)} (h : ModerateClamp c) {u : ℚ} (hu : IsSample u)
    (j : Fin d) : ∃ y, fpu64.add (fpu64.mul (fpu64.sub
        (.fin ((c.getD (fun _ => 0, fun _ => 1)).2 j))
        (.fin ((c.getD (fun _ => 0, fun _ => 1)).1 j))) (.fin u))
        (.fin ((c.getD (fun _ => 0, fun _ => 1)).1 j)) = .fin y ∧ |y| ≤ 2 ^ 1002 := by
  obtain ⟨h1, h2⟩ := moderate_getD h j
  obtain ⟨h3, h4⟩ := rnd_small (k := 1001) (by norm_num) (add_pow_le h2 h1).2
  obtain ⟨h5, h6⟩ := rnd_small (k := 1001) (by norm_num) (abs_mul_sample h4 hu)
  have h1' := h1.trans (pow_le_pow_right₀ (by norm_num : (1 : ℚ) ≤ 2) (by norm_num : 1000 ≤ 1001))
  obtain ⟨h7, h8⟩ := rnd_small (k := 1002) (by norm_num) (add_pow_le h6 h1').1
  rw [Fpu.sub_fin, h3, Fpu.mul_fin, h5, Fpu.add_fin, h7]
  exact ⟨_, rfl, h8⟩

/-! ## Theorems -/

/-- **C94** (no clamp needed).  A GlobalBestPSO with `nearest`, `random` or `intermediate`: however
large the velocities become, infinite ones included, every evaluated position consists of numbers
inside the bounds, after any history of calls. -/
theorem C94_inside (cfg : Config n d ℚ) (b : Bounds d ℚ) (hb : ModerateBounds b)
    (hcb : cfg.bounds = some b) (hst : cfg.bhStrategy ∈ ["nearest", "random", "intermediate"])
    (hcl : ModerateClamp cfg.clamp) (s : OptX n d ℚ)
    (h : RunsX cfg (fun c => c.Samples ∧ c.ModerateOptions ∧ c.Inertia) s) :
    (∀ e ∈ s.evals, InsideX b e.1) ∧ InsideX b s.swarm.position ∧ NanFree s.swarm.velocity := by
  have hg := goodX_runs (V := fun v => v ≠ .nan) hb hcb
    { inertia := fun c hc t o ho w hw v hv =>
        fpu64_lawful.mul_ne_nan hv (hc.2.2 t o ho w hw)
      handler := fun m p v v' vm hm hp hv hcall => vhCallX_nanFree hm hp hv hcall
      move := fun x v m x' r hx hv hm hr hok => by
        have hn : NanFree (fun i j => fpu64.add (x i j) (v i j)) := by
          intro i j
          obtain ⟨y, hy, -⟩ := hx i j
          dsimp only
          rw [hy]
          exact fpu64_lawful.fin_add_ne_nan (hv i j) y
        obtain ⟨x'', h1, h2⟩ := C94_handlers cfg.bhStrategy hst b hb r hr m _ hm hn
        rw [h1] at hok
        cases hok
        exact h2 }
    (fun c hc => ⟨hc.1, hc.2.1⟩)
    (fun u hu i j => by
      obtain ⟨y, hy, -⟩ := initVelocityX hcl (hu i j) j
      rw [hy]
      simp) h
  exact ⟨hg.evals, hg.pos, hg.vel⟩

theorem clampX_moderate {c : Clamp d ℚ} (hc : ∀ j, |c.1 j| ≤ 2 ^ 1000 ∧ |c.2 j| ≤ 2 ^ 1000)
    {v : Mat n d (XR ℚ)} (hv : NanFree v) (i : Fin n) (j : Fin d) :
    ∃ y, clampOptX (some c) v i j = .fin y ∧ |y| ≤ 2 ^ 1002 := by
  have hup : (2 : ℚ) ^ 1000 ≤ 2 ^ 1002 := pow_le_pow_right₀ (by norm_num) (by norm_num)
  obtain ⟨h1, h2⟩ := hc j
  have h0 := hv i j
  simp only [clampOptX, applyClampX]
  cases hx : v i j with
  | nan => exact absurd hx h0
  | pinf => exact ⟨c.2 j, by simp [XR.le, XR.lt, XR.isNan], h2.trans hup⟩
  | ninf => exact ⟨c.1 j, by simp [XR.le, XR.lt, XR.isNan], h1.trans hup⟩
  | fin y =>
    by_cases h4 : c.2 j ≤ y
    · exact ⟨c.2 j, by simp [XR.le, XR.lt, XR.isNan, h4], h2.trans hup⟩
    · by_cases h3 : y ≤ c.1 j
      · exact ⟨c.1 j, by simp [XR.le, XR.lt, XR.isNan, h3, not_le.1 h4], h1.trans hup⟩
      · refine ⟨y, by simp [XR.le, XR.lt, XR.isNan, not_le.1 h3, not_le.1 h4], ?_⟩
        rw [abs_le] at h1 h2 ⊢
        rw [not_le] at h3 h4
        generalize (2 : ℚ) ^ 1000 = M at *
        generalize (2 : ℚ) ^ 1002 = N at *
        exact ⟨by linarith [h1.1], by linarith [h2.2]⟩

/-- **C94** (with a clamp).  With a velocity clamp and a velocity strategy that applies it, this holds
of `periodic`, the default, as well, for every inertia. -/
theorem C94_clamped (cfg : Config n d ℚ) (b : Bounds d ℚ) (hb : ModerateBounds b)
    (hcb : cfg.bounds = some b)
    (hst : cfg.bhStrategy ∈ ["nearest", "random", "intermediate", "periodic"])
    (hvs : cfg.vhStrategy ∈ ["unmodified", "adjust", "invert"])
    (cl : Clamp d ℚ) (hclamp : cfg.clamp = some cl) (hcl : ModerateClamp cfg.clamp) (s : OptX n d ℚ)
    (h : RunsX cfg (fun c => c.Samples ∧ c.ModerateOptions) s) :
    (∀ e ∈ s.evals, InsideX b e.1) ∧ InsideX b s.swarm.position ∧
      ∀ i j, ∃ y, s.swarm.velocity i j = .fin y := by
  have hg := goodX_runs (V := fun v => ∃ y, v = .fin y ∧ |y| ≤ 2 ^ 1002) hb hcb
    { inertia := fun c hc t o ho w hw v hv => by
        obtain ⟨y, rfl, -⟩ := hv
        exact fpu64_lawful.notNan _
      handler := fun m p v v' vm hm hp hv hcall => by
        rw [hclamp] at hcall
        have hmod := hcl cl hclamp
        unfold vhCallX at hcall
        simp only [List.mem_cons, List.not_mem_nil, or_false] at hvs
        rcases hvs with h1 | h1 | h1
        · rw [h1] at hcall
          cases hcall
          exact clampX_moderate hmod hv
        · rw [h1] at hcall
          cases hcall
          refine clampX_moderate hmod fun i j => ?_
          obtain ⟨x, hx, -⟩ := hp i j
          obtain ⟨y, hy, -⟩ := hm i j
          rw [hx, hy]
          exact fpu64_lawful.sub_fin_fin_ne_nan x y
        · rw [h1] at hcall
          have hcall' : vhCallX fpu64 "invert" (some m) none cfg.bounds p v =
              (some m, .ok (fun i j => if rowHighX b p i then fpu64.mul (.fin (-(1 / 2)))
                (if rowLowX b p i then fpu64.mul (.fin (-(1 / 2))) (v i j) else v i j)
                else (if rowLowX b p i then fpu64.mul (.fin (-(1 / 2))) (v i j) else v i j))) := by
            rw [hcb]
            rfl
          have hn := vhCallX_nanFree hm hp hv hcall'
          rw [hcb] at hcall
          cases hcall
          exact clampX_moderate hmod hn
      move := fun x v m x' r hx hv hm hr hok => by
        have hfin : ∀ i j, ∃ y, fpu64.add (x i j) (v i j) = .fin y ∧ |y| ≤ 2 ^ 1004 := by
          intro i j
          obtain ⟨y, hy, hy2⟩ := hx i j
          obtain ⟨z, hz, hz2⟩ := hv i j
          rw [hy, hz, Fpu.add_fin]
          have hy3 := (abs_inside hb hy2).trans
            (pow_le_pow_right₀ (by norm_num : (1 : ℚ) ≤ 2) (by norm_num : 1000 ≤ 1002))
          obtain ⟨h1, h2⟩ := rnd_small (k := 1003) (by norm_num) (add_pow_le hy3 hz2).1
          exact ⟨_, h1, h2.trans (pow_le_pow_right₀ (by norm_num) (by norm_num))⟩
        by_cases hper : cfg.bhStrategy = "periodic"
        · rw [hper] at hok
          cases hok
          exact periodicX_inside hb _ hfin
        · have hst' : cfg.bhStrategy ∈ ["nearest", "random", "intermediate"] := by
            simp only [List.mem_cons, List.not_mem_nil, or_false] at hst ⊢
            tauto
          have hn : NanFree (fun i j => fpu64.add (x i j) (v i j)) := by
            intro i j
            obtain ⟨y, hy, -⟩ := hfin i j
            dsimp only
            rw [hy]
            simp
          obtain ⟨x'', h1, h2⟩ := C94_handlers cfg.bhStrategy hst' b hb r hr m _ hm hn
          rw [h1] at hok
          cases hok
          exact h2 }
    (fun c hc => hc) (fun u hu i j => initVelocityX hcl (hu i j) j) h
  exact ⟨hg.evals, hg.pos, fun i j => (hg.vel i j).imp fun _ h => h.1⟩

section
variable {K : Type} [Field K] [LinearOrder K] [IsStrictOrderedRing K]

/-- **C94** (`reflective`).  A coordinate that has become infinite is reflected for ever. -/
theorem C94_reflective_hangs (A : Fpu K) (b : Bounds d K) (x : Mat n d (XR K)) (i : Fin n) (j : Fin d)
    (hx : x i j = .pinf ∨ x i j = .ninf)
    (h1 : ∃ y, A.rnd (2 * b.1 j) = .fin y) (h2 : ∃ y, A.rnd (2 * b.2 j) = .fin y) (passes : Nat) :
    bhReflectiveX A b passes x = .error .diverges := by
  have hout : ∀ x : Mat n d (XR K), (x i j = .pinf ∨ x i j = .ninf) → anyOutX b x = true := by
    intro x hx
    unfold anyOutX
    rw [List.any_eq_true]
    refine ⟨i, List.mem_finRange i, ?_⟩
    rw [Bool.or_eq_true]
    rcases hx with hx | hx
    · right
      unfold rowHighX
      rw [List.any_eq_true]
      exact ⟨j, List.mem_finRange j, by unfold isHighX; rw [hx]; rfl⟩
    · left
      unfold rowLowX
      rw [List.any_eq_true]
      exact ⟨j, List.mem_finRange j, by unfold isLowX; rw [hx]; rfl⟩
  have hpass : ∀ x : Mat n d (XR K), (x i j = .pinf ∨ x i j = .ninf) →
      (reflectPassX A b x i j = .pinf ∨ reflectPassX A b x i j = .ninf) := by
    intro x hx
    obtain ⟨y1, h1⟩ := h1
    obtain ⟨y2, h2⟩ := h2
    unfold reflectPassX isLowX isHighX
    dsimp only
    rw [Fpu.mul_fin, Fpu.mul_fin, h1, h2]
    rcases hx with hx | hx
    · rw [hx]; exact .inr rfl
    · rw [hx]; exact .inl rfl
  induction passes generalizing x with
  | zero => simp [bhReflectiveX, hout x hx]
  | succ m ih =>
    unfold bhReflectiveX
    rw [if_pos (hout x hx)]
    exact ih _ (hpass x hx)

/-- **C94** (`periodic`).  An infinite coordinate becomes `nan`. -/
theorem C94_periodic_nan [FloorRing K] (A : Fpu K) (b : Bounds d K) (x : Mat n d (XR K)) (i : Fin n)
    (j : Fin d) (hx : x i j = .pinf ∨ x i j = .ninf) : bhPeriodicX A b x i j = .nan := by
  have hm : ∀ s : XR K, A.mod .pinf s = .nan := fun s => by cases s <;> rfl
  unfold bhPeriodicX isLowX isHighX
  dsimp only
  rcases hx with hx | hx
  · have h : A.sub .pinf (.fin (b.2 j)) = .pinf := rfl
    rw [hx]
    simp only [XR.lt, Bool.false_eq_true, if_false, if_true, h, hm, Fpu.add_nan]
  · have h : A.sub (.fin (b.1 j)) .ninf = .pinf := rfl
    rw [hx]
    simp only [XR.lt, Bool.false_eq_true, if_false, if_true, h, hm, Fpu.sub_nan]

end

theorem npArgmin_not_lt {c : Costs n ℚ} {k : Fin n} (h : npArgmin c = some k) (i : Fin n) :
    XR.lt (c i) (c k) = false := by
  have key : ∀ (l : List (Fin n)) (acc : Option (Fin n)) (P : Fin n → Prop),
      (∀ a, acc = some a → ∀ i, P i → c a = .nan ∨ (c i ≠ .nan ∧ XR.lt (c i) (c a) = false)) →
      (acc = none → ∀ i, ¬ P i) → ∀ k, l.foldl (argStep c) acc = some k →
      ∀ i, P i ∨ i ∈ l → c k = .nan ∨ (c i ≠ .nan ∧ XR.lt (c i) (c k) = false) := by
    intro l
    induction l with
    | nil =>
      intro acc P h1 h2 k hk i hi
      simp only [List.foldl_nil] at hk
      exact h1 k hk i (by simpa using hi)
    | cons a l ih =>
      intro acc P h1 h2 k hk i hi
      rw [List.foldl_cons] at hk
      refine ih _ (fun i => P i ∨ i = a) ?_ ?_ k hk i ?_
      · intro b hb i hi
        have hirr : ∀ x : XR ℚ, XR.lt x x = false := fun x => by cases x <;> simp [XR.lt]
        cases acc with
        | none =>
          simp only [argStep, Option.some.injEq] at hb
          subst hb
          rcases hi with hi | rfl
          · exact absurd hi (h2 rfl i)
          · by_cases hn : c i = .nan
            · exact .inl hn
            · exact .inr ⟨hn, hirr _⟩
        | some m =>
          have h1' := fun i hi => h1 m rfl i hi
          unfold argStep at hb
          dsimp only at hb
          split_ifs at hb with hbet
          · simp only [Option.some.injEq] at hb
            subst hb
            by_cases hn : c a = .nan
            · exact .inl hn
            · right
              rcases hi with hi | rfl
              · have hm : c m ≠ .nan := by
                  intro hm
                  rw [hm] at hbet
                  simp [npBetter, XR.isNan] at hbet
                rcases h1' i hi with h3 | ⟨h3, h4⟩
                · exact absurd h3 hm
                · refine ⟨h3, ?_⟩
                  revert hbet h4 hm hn h3
                  generalize c a = x
                  generalize c m = y
                  generalize c i = z
                  cases x <;> cases y <;> cases z <;> simp [npBetter, XR.lt, XR.isNan]
                  intro h5 h6
                  linarith
              · exact ⟨hn, hirr _⟩
          · simp only [Option.some.injEq] at hb
            subst hb
            rcases hi with hi | rfl
            · exact h1' i hi
            · revert hbet
              generalize c m = y
              generalize c i = z
              cases y <;> cases z <;> simp [npBetter, XR.lt, XR.isNan]
      · intro hb
        exfalso
        cases acc with
        | none => simp [argStep] at hb
        | some m =>
          unfold argStep at hb
          dsimp only at hb
          split_ifs at hb
      · rcases hi with hi | hi
        · exact .inl (.inl hi)
        · rcases List.mem_cons.1 hi with rfl | hi
          · exact .inl (.inr rfl)
          · exact .inr hi
  rcases key (List.finRange n) none (fun _ => False) (by simp) (by simp) k h i
    (.inr (List.mem_finRange i)) with h1 | h1
  · rw [h1]
    cases c i <;> rfl
  · exact h1.2

/-- `nan`, `inf` or a number that is not negative. -/
def NotNegX (s : XR ℚ) : Prop := s = .nan ∨ s = .pinf ∨ ∃ y, s = .fin y ∧ 0 ≤ y

theorem notNeg_rnd {y : ℚ} (h : 0 ≤ y) : NotNegX (fpu64.rnd y) := by
  have h1 := f64_nonneg h
  have h2 : ¬ f64 y ≤ -2 ^ 1024 := by
    intro h3
    have : (0 : ℚ) < 2 ^ 1024 := by positivity
    generalize (2 : ℚ) ^ 1024 = M at h3 this
    linarith
  unfold fpu64
  dsimp only
  split_ifs
  · exact .inr (.inl rfl)
  · exact .inr (.inr ⟨_, rfl, h1⟩)

theorem rnd_zero : fpu64.rnd 0 = .fin 0 := by
  have h : fpu64.rnd 0 = .fin (f64 0) := (rnd_small (k := 0) (by norm_num) (by norm_num)).1
  have h0 : f64 0 = 0 := f64_of_isDouble ⟨0, 0, by norm_num, by norm_num, by simp⟩
  rw [h, h0]

theorem f64_nonpos {y : ℚ} (h : y ≤ 0) : f64 y ≤ 0 := by
  have h1 := f64_nonneg (x := -y) (by linarith)
  rw [f64_neg] at h1
  linarith

theorem rnd_cases (y : ℚ) : fpu64.rnd y = .pinf ∧ 0 < f64 y ∨
    fpu64.rnd y = .ninf ∧ f64 y < 0 ∨ fpu64.rnd y = .fin (f64 y) := by
  have hp : (0 : ℚ) < 2 ^ 1024 := by positivity
  unfold fpu64
  dsimp only
  split_ifs with h1 h2
  · exact .inl ⟨rfl, hp.trans_le h1⟩
  · exact .inr (.inl ⟨rfl, h2.trans_lt (neg_lt_zero.2 hp)⟩)
  · exact .inr (.inr rfl)

theorem notNeg_div {a z : ℚ} (h : 0 ≤ a ∧ 0 ≤ z ∨ a ≤ 0 ∧ z ≤ 0) :
    NotNegX (fpu64.div (.fin a) (.fin z)) ∨ z = 0 := by
  by_cases hz : z = 0
  · exact .inr hz
  · left
    unfold Fpu.div XR.div
    dsimp only
    rw [if_neg hz]
    exact notNeg_rnd (by
      rcases h with ⟨h1, h2⟩ | ⟨h1, h2⟩
      · exact div_nonneg h1 h2
      · exact div_nonneg_of_nonpos h1 h2)

/-- **C94** (`shrink`).  An infinite coordinate becomes `nan`. -/
theorem C94_shrink_nan (b : Bounds d ℚ) (hb : ModerateBounds b) (m x : Mat n d (XR ℚ))
    (hm : InsideX b m) (i : Fin n) (j : Fin d) (hx : x i j = .pinf ∨ x i j = .ninf) :
    ∃ r, bhShrinkX fpu64 b (some m) x = (some r, .ok r) ∧ r i j = .nan := by
  have hd : d ≠ 0 := fun h => (h ▸ j).elim0
  unfold bhShrinkX
  dsimp only
  rw [if_neg hd]
  refine ⟨_, rfl, ?_⟩
  have hrow : (rowLowX b x i || rowHighX b x i) = true := by
    rw [Bool.or_eq_true]
    rcases hx with hx | hx
    · right
      unfold rowHighX
      rw [List.any_eq_true]
      exact ⟨j, List.mem_finRange j, by unfold isHighX; rw [hx]; rfl⟩
    · left
      unfold rowLowX
      rw [List.any_eq_true]
      exact ⟨j, List.mem_finRange j, by unfold isLowX; rw [hx]; rfl⟩
  rw [if_pos hrow]
  obtain ⟨mj, hmj, hmi⟩ := hm i j
  have hnum : ∀ (j : Fin d) (e y : ℚ), (b.1 j ≤ e ∧ e ≤ b.2 j) → (b.1 j ≤ y ∧ y ≤ b.2 j) →
      fpu64.sub (.fin e) (.fin y) = .fin (f64 (e - y)) := fun j e y he hy => by
    rw [Fpu.sub_fin]
    exact (rnd_small (k := 1001) (by norm_num)
      (add_pow_le (abs_inside hb he) (abs_inside hb hy)).2).1
  have hle : ∀ j, b.1 j ≤ b.2 j := fun j => by
    obtain ⟨y, -, h⟩ := hm i j
    exact h.1.trans h.2
  have hinf : ∀ a : ℚ, fpu64.div (.fin a) .pinf = .fin 0 ∧ fpu64.div (.fin a) .ninf = .fin 0 :=
    fun a => ⟨rnd_zero, rnd_zero⟩
  have hsj : shrinkSigmaX fpu64 b m x i j = .fin 0 := by
    unfold shrinkSigmaX isLowX isHighX
    dsimp only
    rcases hx with hx | hx
    · rw [hx, hmj, hnum j _ _ ⟨hle j, le_rfl⟩ hmi]
      exact (hinf (f64 (b.2 j - mj))).1
    · rw [hx, hmj, hnum j _ _ ⟨le_rfl, hle j⟩ hmi]
      exact (hinf (f64 (b.1 j - mj))).2
  have hall : ∀ k, NotNegX (shrinkSigmaX fpu64 b m x i k) := by
    intro k
    obtain ⟨mk, hmk, hmki⟩ := hm i k
    have hl := hnum k _ _ ⟨le_rfl, hle k⟩ hmki
    have hu := hnum k _ _ ⟨hle k, le_rfl⟩ hmki
    unfold shrinkSigmaX isLowX isHighX
    dsimp only
    rw [hmk, hl, hu]
    have hz : ∀ a : ℚ, f64 a = 0 → NotNegX (fpu64.div (.fin (f64 a)) (.fin 0)) := by
      intro a ha
      rw [ha]
      left
      simp [Fpu.div, XR.div, Fpu.round]
    cases hxk : x i k with
    | nan => exact .inr (.inr ⟨1, rfl, by norm_num⟩)
    | pinf => exact .inr (.inr ⟨0, (hinf (f64 (b.2 k - mk))).1, le_rfl⟩)
    | ninf => exact .inr (.inr ⟨0, (hinf (f64 (b.1 k - mk))).2, le_rfl⟩)
    | fin y =>
      rw [Fpu.sub_fin]
      by_cases h1 : b.2 k < y
      · have h2 : ¬ y < b.1 k := not_lt.2 ((hle k).trans h1.le)
        simp only [XR.lt, h1, h2, decide_true, decide_false, Bool.false_eq_true, if_true, if_false]
        have ha : 0 ≤ f64 (b.2 k - mk) := f64_nonneg (by linarith [hmki.2])
        have hv : f64 (b.2 k - mk) ≤ f64 (y - mk) := f64_mono (by linarith)
        rcases rnd_cases (y - mk) with h3 | h3 | h3
        · rw [h3.1, (hinf _).1]
          exact .inr (.inr ⟨0, rfl, le_rfl⟩)
        · linarith [h3.2]
        · rw [h3]
          rcases notNeg_div (.inl ⟨ha, ha.trans hv⟩) with h4 | h4
          · exact h4
          · rw [h4]
            exact hz _ (le_antisymm (h4 ▸ hv) ha)
      · by_cases h2 : y < b.1 k
        · simp only [XR.lt, h1, h2, decide_true, decide_false, Bool.false_eq_true, if_true, if_false]
          have ha : f64 (b.1 k - mk) ≤ 0 := f64_nonpos (by linarith [hmki.1])
          have hv : f64 (y - mk) ≤ f64 (b.1 k - mk) := f64_mono (by linarith)
          rcases rnd_cases (y - mk) with h3 | h3 | h3
          · linarith [h3.2]
          · rw [h3.1, (hinf _).2]
            exact .inr (.inr ⟨0, rfl, le_rfl⟩)
          · rw [h3]
            rcases notNeg_div (.inr ⟨ha, hv.trans ha⟩) with h4 | h4
            · exact h4
            · rw [h4]
              exact hz _ (le_antisymm ha (h4 ▸ hv))
        · simp only [XR.lt, h1, h2, decide_false, Bool.false_eq_true, if_false]
          exact .inr (.inr ⟨1, rfl, by norm_num⟩)
  unfold npMin
  cases hk : npArgmin (shrinkSigmaX fpu64 b m x i) with
  | none => exact absurd ((npArgmin_none _).1 hk) hd
  | some k =>
    have h1 := npArgmin_not_lt hk j
    have h2 := hall k
    rw [hsj] at h1
    simp only [Option.map_some]
    generalize shrinkSigmaX fpu64 b m x i k = s at h1 h2 ⊢
    have hsub : fpu64.sub (x i j) (m i j) = x i j := by
      rcases hx with hx | hx <;> rw [hx, hmj] <;> rfl
    rw [hsub]
    have hs : s = .nan ∨ s = .fin 0 := by
      rcases h2 with h2 | h2 | ⟨y, h2, hy⟩
      · exact .inl h2
      · rw [h2] at h1; simp [XR.lt] at h1
      · rw [h2] at h1 ⊢
        simp only [XR.lt, decide_eq_false_iff_not, not_lt] at h1
        exact .inr (congrArg XR.fin (le_antisymm h1 hy))
    have hmul : fpu64.mul s (x i j) = .nan := by
      rcases hs with hs | hs
      · rw [hs, Fpu.nan_mul]
      · rw [hs]
        rcases hx with hx | hx <;> rw [hx] <;> simp [Fpu.mul, XR.mul, XR.infTimes, Fpu.round]
    rw [hmul, Fpu.add_nan]


namespace Ex

/-- One particle in one dimension, with bounds `[-1, 1]`. -/
def xcfg (bh : String) (clamp : Option (Clamp 1 ℚ)) : Config 1 1 ℚ :=
  { gcfg 1 1 with bounds := some (fun _ => -1, fun _ => 1), bhStrategy := bh, clamp := clamp }

/-- A flat objective and the enormous inertia `2^700` (about `10^210`). -/
def xcall : CallX 1 1 ℚ where
  ev := fun _ _ => .ok fun _ => .fin 0
  env := fun _ => draw 1 1
  oh := fun _ => .ok [("c1", 1 / 2), ("c2", 1 / 4), ("w", 2 ^ 700)]

/-- The optimizer after construction with `init_pos = 0.5`. -/
def xstart (cfg : Config 1 1 ℚ) : OptX 1 1 ℚ :=
  match constructX fpu64 cfg (fun _ _ => .fin (1 / 2)) (fun _ _ => 1 / 4) with
  | .ok s => s
  | .error _ => ⟨⟨fun _ _ => .nan, fun _ _ => .nan, fun _ _ => .nan, fun _ => .nan, none, none⟩,
      none, none, [], []⟩

/-- What was evaluated in a call of three iterations. -/
def xevals (bh : String) : List (XR ℚ) :=
  (optimizeX fpu64 (xcfg bh none) xcall 3 (xstart (xcfg bh none))).1.evals.map fun e => e.1 0 0

end Ex

theorem xcall_ok : Ex.xcall.Samples ∧ Ex.xcall.ModerateOptions ∧ Ex.xcall.Inertia := by
  have h2 : IsSample (1 / 2) := ⟨2 ^ 52, by norm_num, by norm_num⟩
  have h4 : IsSample (1 / 4) := ⟨2 ^ 51, by norm_num, by norm_num⟩
  refine ⟨fun t => ⟨fun _ => ⟨h2, h4⟩, fun i j => ⟨h2, h2⟩⟩, ?_, ?_⟩
  · intro t o ho x hx
    cases ho
    rcases hx with hx | hx
    · cases hx; rw [abs_of_nonneg (by norm_num)]; norm_num
    · cases hx; rw [abs_of_nonneg (by norm_num)]; norm_num
  · intro t o ho w hw
    cases ho
    cases hw
    positivity

theorem xbounds_ok : ModerateBounds (d := 1) (fun _ => -1, fun _ => 1) := by
  have h1 : (1 : ℚ) ≤ 2 ^ 1000 := one_le_pow₀ (by norm_num)
  refine ⟨⟨fun j => by norm_num, fun j => ⟨?_, ?_⟩⟩, fun j => ⟨?_, ?_⟩⟩
  · exact ⟨-1, 0, by norm_num, by norm_num, by norm_num⟩
  · exact ⟨1, 0, by norm_num, by norm_num, by norm_num⟩
  · simpa using h1
  · simpa using h1

theorem xstart_runs (bh : String) (cl : Option (Clamp 1 ℚ)) (C : CallX 1 1 ℚ → Prop) :
    RunsX (Ex.xcfg bh cl) C (Ex.xstart (Ex.xcfg bh cl)) :=
  .constructed (fun _ _ => .fin (1 / 2)) (fun _ _ => 1 / 4)
    (fun _ _ => ⟨2 ^ 51, by norm_num, by norm_num⟩) _ (by
      have h : ∃ s, constructX fpu64 (Ex.xcfg bh cl) (fun _ _ => .fin (1 / 2)) (fun _ _ => 1 / 4) =
          .ok s := by
        unfold constructX
        exact ⟨_, if_pos (by decide +kernel)⟩
      obtain ⟨s, hs⟩ := h
      unfold Ex.xstart
      rw [hs])

/-- **C94** (the claim fails for the default).  Without a clamp the strategies `periodic`, the
default, and `shrink` can make the objective see `nan`, although bounds, coefficients, draws and the
initial position satisfy all conditions of `C94_inside`. -/
theorem C94_default_nan (bh : String) (h : bh = "periodic" ∨ bh = "shrink") :
    ∃ (cfg : Config 1 1 ℚ) (b : Bounds 1 ℚ) (s : OptX 1 1 ℚ), ModerateBounds b ∧
      cfg.bounds = some b ∧ cfg.bhStrategy = bh ∧ cfg.vhStrategy = "unmodified" ∧
      RunsX cfg (fun c => c.Samples ∧ c.ModerateOptions ∧ c.Inertia) s ∧
      ∃ e ∈ s.evals, e.1 0 0 = .nan := by
  refine ⟨Ex.xcfg bh none, _, _, xbounds_ok, rfl, rfl, rfl,
    .called _ (xstart_runs bh none _) Ex.xcall xcall_ok 3, ?_⟩
  have key : ((optimizeX fpu64 (Ex.xcfg bh none) Ex.xcall 3
      (Ex.xstart (Ex.xcfg bh none))).1.evals.any fun e => decide (e.1 0 0 = .nan)) = true := by
    rcases h with rfl | rfl
    · decide +kernel
    · decide +kernel
  simpa using key

/-! ## The hypotheses are satisfiable -/

/-- A run with `nearest` whose velocity has become infinite: all evaluated positions are inside. -/
example : ((optimizeX fpu64 (Ex.xcfg "nearest" none) Ex.xcall 3
      (Ex.xstart (Ex.xcfg "nearest" none))).1.swarm.velocity 0 0 = .pinf ∧
    Ex.xevals "nearest" = [.fin (1 / 2), .fin 1, .fin 1]) ∧
    ∀ e ∈ (optimizeX fpu64 (Ex.xcfg "nearest" none) Ex.xcall 3
      (Ex.xstart (Ex.xcfg "nearest" none))).1.evals, InsideX (fun _ => -1, fun _ => 1) e.1 := by
  refine ⟨by decide +kernel, ?_⟩
  exact (C94_inside (Ex.xcfg "nearest" none) _ xbounds_ok rfl (by simp [Ex.xcfg])
    (fun c' h => by cases h) _ (.called _ (xstart_runs "nearest" none _) Ex.xcall xcall_ok 3)).1

/-- The same inertia with `periodic` and a clamp. -/
example : ∀ e ∈ (optimizeX fpu64 (Ex.xcfg "periodic" (some (fun _ => -1, fun _ => 1))) Ex.xcall 3
      (Ex.xstart (Ex.xcfg "periodic" (some (fun _ => -1, fun _ => 1))))).1.evals,
    InsideX (fun _ => -1, fun _ => 1) e.1 := by
  have h1 : (1 : ℚ) ≤ 2 ^ 1000 := one_le_pow₀ (by norm_num)
  refine (C94_clamped (Ex.xcfg "periodic" (some (fun _ => -1, fun _ => 1))) _ xbounds_ok rfl
    (by simp [Ex.xcfg]) (by simp [Ex.xcfg, Ex.gcfg]) (fun _ => -1, fun _ => 1) rfl
    (fun c' h j => ?_) _
    (.called _ (xstart_runs "periodic" _ _) Ex.xcall ⟨xcall_ok.1, xcall_ok.2.1⟩ 3)).1
  cases h
  simpa using h1

example : ((optimizeX fpu64 (Ex.xcfg "periodic" (some (fun _ => -1, fun _ => 1))) Ex.xcall 3
      (Ex.xstart (Ex.xcfg "periodic" (some (fun _ => -1, fun _ => 1))))).1.evals.map
      fun e => e.1 0 0) = [.fin (1 / 2), .fin (-1 / 2), .fin (1 / 2)] := by decide +kernel

/-- An infinite coordinate under `reflective`, `periodic` and `shrink` with bounds `[-1, 1]`. -/
example : (∀ passes, bhReflectiveX (n := 1) fpu64 (fun _ : Fin 1 => -1, fun _ => 1) passes
      (fun _ _ => .pinf) = .error .diverges) ∧
    bhPeriodicX (n := 1) fpu64 (fun _ : Fin 1 => -1, fun _ => 1) (fun _ _ => .ninf) 0 0 = .nan ∧
    ∃ r, bhShrinkX (n := 1) fpu64 (fun _ : Fin 1 => -1, fun _ => 1) (some fun _ _ => .fin (1 / 2))
      (fun _ _ => .pinf) = (some r, .ok r) ∧ r 0 0 = .nan :=
  ⟨C94_reflective_hangs fpu64 _ _ 0 0 (.inl rfl) ⟨-2, by decide +kernel⟩ ⟨2, by decide +kernel⟩,
    C94_periodic_nan fpu64 _ _ 0 0 (.inr rfl),
    C94_shrink_nan _ xbounds_ok _ _ (fun i j => ⟨1 / 2, rfl, by norm_num⟩) 0 0 (.inl rfl)⟩

end PySwarms
