import Verif.Spec
import Mathlib.Algebra.Order.Floor.Ring
import Mathlib.Algebra.Order.Archimedean.Basic
import Mathlib.Algebra.Order.BigOperators.Group.Finset
import Mathlib.Tactic.FieldSimp
import Mathlib.Tactic.Positivity

/-! Lemmas about the boundary and velocity handlers. -/

set_option linter.unusedSectionVars false

namespace PySwarms

variable {n d : Nat} {K : Type} [Field K] [LinearOrder K] [IsStrictOrderedRing K]

theorem isLow_iff (b : Bounds d K) (x : Mat n d K) (i : Fin n) (j : Fin d) :
    isLow b x i j = true ↔ x i j < b.1 j := by simp [isLow]

theorem isHigh_iff (b : Bounds d K) (x : Mat n d K) (i : Fin n) (j : Fin d) :
    isHigh b x i j = true ↔ b.2 j < x i j := by simp [isHigh]

theorem rowLow_iff (b : Bounds d K) (x : Mat n d K) (i : Fin n) :
    rowLow b x i = true ↔ ∃ j, x i j < b.1 j := by simp [rowLow, isLow]

theorem rowHigh_iff (b : Bounds d K) (x : Mat n d K) (i : Fin n) :
    rowHigh b x i = true ↔ ∃ j, b.2 j < x i j := by simp [rowHigh, isHigh]

theorem anyOut_iff (b : Bounds d K) (x : Mat n d K) :
    anyOut b x = true ↔ ∃ i j, x i j < b.1 j ∨ b.2 j < x i j := by
  unfold anyOut
  simp only [List.any_eq_true, List.mem_finRange, true_and, Bool.or_eq_true, rowLow_iff,
    rowHigh_iff]
  constructor
  · rintro ⟨i, ⟨j, h⟩ | ⟨j, h⟩⟩
    · exact ⟨i, j, Or.inl h⟩
    · exact ⟨i, j, Or.inr h⟩
  · rintro ⟨i, j, h | h⟩
    · exact ⟨i, Or.inl ⟨j, h⟩⟩
    · exact ⟨i, Or.inr ⟨j, h⟩⟩

theorem anyOut_false_iff (b : Bounds d K) (x : Mat n d K) : anyOut b x = false ↔ InBox b x := by
  rw [← Bool.not_eq_true, anyOut_iff]
  unfold InBox
  push Not
  rfl

/-! ### nearest -/

theorem bhNearest_apply (b : Bounds d K) (x : Mat n d K) (i : Fin n) (j : Fin d) :
    bhNearest b x i j =
      if b.2 j < x i j then b.2 j else if x i j < b.1 j then b.1 j else x i j := by
  simp [bhNearest, isLow, isHigh]

theorem bhNearest_inBox (b : Bounds d K) (hb : ∀ j, b.1 j ≤ b.2 j) (x : Mat n d K) :
    InBox b (bhNearest b x) := by
  intro i j
  rw [bhNearest_apply]
  split_ifs with h1 h2
  · exact ⟨hb j, le_refl _⟩
  · exact ⟨le_refl _, hb j⟩
  · exact ⟨not_lt.1 h2, not_lt.1 h1⟩

/-! ### reflective -/

theorem reflectPass_apply (b : Bounds d K) (x : Mat n d K) (i : Fin n) (j : Fin d) :
    reflectPass b x i j =
      if b.2 j < x i j then
        2 * b.2 j - (if x i j < b.1 j then 2 * b.1 j - x i j else x i j)
      else if x i j < b.1 j then 2 * b.1 j - x i j else x i j := by
  simp [reflectPass, isLow, isHigh]

theorem mirrorImage_refl (lb ub x : K) : MirrorImage lb ub x x := ⟨0, Or.inl (by simp)⟩

theorem mirrorImage_low {lb ub x y : K} (h : MirrorImage lb ub (2 * lb - x) y) :
    MirrorImage lb ub x y := by
  obtain ⟨m, h | h⟩ := h
  · exact ⟨m, Or.inr h⟩
  · exact ⟨m, Or.inl (by rw [h]; ring)⟩

theorem mirrorImage_high {lb ub x y : K} (h : MirrorImage lb ub (2 * ub - x) y) :
    MirrorImage lb ub x y := by
  obtain ⟨m, h | h⟩ := h
  · exact ⟨m + 1, Or.inr (by rw [h]; push_cast; ring)⟩
  · exact ⟨m - 1, Or.inl (by rw [h]; push_cast; ring)⟩

theorem mirrorImage_pass {b : Bounds d K} {x : Mat n d K} {y : K} {i : Fin n} {j : Fin d}
    (h : MirrorImage (b.1 j) (b.2 j) (reflectPass b x i j) y) :
    MirrorImage (b.1 j) (b.2 j) (x i j) y := by
  rw [reflectPass_apply] at h
  split_ifs at h with h1 h2 h2
  · exact mirrorImage_low (mirrorImage_high h)
  · exact mirrorImage_high h
  · exact mirrorImage_low h
  · exact h

theorem bhReflective_ok {b : Bounds d K} {m : Nat} {x y : Mat n d K}
    (h : bhReflective b m x = .ok y) :
    InBox b y ∧ ∀ i j, MirrorImage (b.1 j) (b.2 j) (x i j) (y i j) := by
  induction m generalizing x with
  | zero =>
    unfold bhReflective at h
    split at h
    · cases h
    · next hn =>
      cases h
      exact ⟨(anyOut_false_iff b _).1 (by simpa using hn), fun i j => mirrorImage_refl _ _ _⟩
  | succ m ih =>
    unfold bhReflective at h
    split at h
    · obtain ⟨h1, h2⟩ := ih h
      exact ⟨h1, fun i j => mirrorImage_pass (h2 i j)⟩
    · next hn =>
      cases h
      exact ⟨(anyOut_false_iff b _).1 (by simpa using hn), fun i j => mirrorImage_refl _ _ _⟩

theorem bhReflective_inBox_eq {b : Bounds d K} {x : Mat n d K} (h : InBox b x) (m : Nat) :
    bhReflective b m x = .ok x := by
  have : anyOut b x = false := (anyOut_false_iff b x).2 h
  cases m <;> simp [bhReflective, this]

/-- In-bounds coordinates are never moved. -/
theorem bhReflective_coord {b : Bounds d K} {m : Nat} {x y : Mat n d K}
    (h : bhReflective b m x = .ok y) (i : Fin n) (j : Fin d) (h1 : b.1 j ≤ x i j)
    (h2 : x i j ≤ b.2 j) : y i j = x i j := by
  induction m generalizing x with
  | zero =>
    unfold bhReflective at h
    split at h
    · cases h
    · cases h; rfl
  | succ m ih =>
    unfold bhReflective at h
    split at h
    · have hp : reflectPass b x i j = x i j := by
        rw [reflectPass_apply, if_neg (not_lt.2 h2), if_neg (not_lt.2 h1)]
      rw [ih h (by rw [hp]; exact h1) (by rw [hp]; exact h2), hp]
    · cases h; rfl

/-- Passes needed: `m` passes suffice if every coordinate is at most `m` box widths away. -/
theorem bhReflective_terminates {b : Bounds d K} (m : Nat) {x : Mat n d K}
    (hb : ∀ i j, x i j < b.1 j ∨ b.2 j < x i j → b.1 j < b.2 j)
    (hm : ∀ i j, b.1 j - x i j ≤ m * (b.2 j - b.1 j) ∨ ¬ x i j < b.1 j)
    (hm' : ∀ i j, x i j - b.2 j ≤ m * (b.2 j - b.1 j) ∨ ¬ b.2 j < x i j) :
    ∃ y, bhReflective b m x = .ok y := by
  induction m generalizing x with
  | zero =>
    refine ⟨x, ?_⟩
    apply bhReflective_inBox_eq
    intro i j
    constructor
    · rcases hm i j with h | h
      · simp only [Nat.cast_zero, zero_mul, sub_nonpos] at h; exact h
      · exact not_lt.1 h
    · rcases hm' i j with h | h
      · simp only [Nat.cast_zero, zero_mul, sub_nonpos] at h; exact h
      · exact not_lt.1 h
  | succ m ih =>
    unfold bhReflective
    split
    · apply ih
      · intro i j
        rw [reflectPass_apply]
        split_ifs with h1 h2 h2
        · exact fun _ => hb i j (Or.inr h1)
        · exact fun _ => hb i j (Or.inr h1)
        · exact fun _ => hb i j (Or.inl h2)
        · rintro (h | h)
          · exact absurd h h2
          · exact absurd h h1
      · intro i j
        rw [reflectPass_apply]
        rcases le_or_gt (b.2 j) (b.1 j) with hle | hlt
        · right
          have hx1 : ¬ x i j < b.1 j := fun h => absurd (hb i j (Or.inl h)) (not_lt.2 hle)
          have hx2 : ¬ b.2 j < x i j := fun h => absurd (hb i j (Or.inr h)) (not_lt.2 hle)
          rw [if_neg hx2, if_neg hx1]; exact hx1
        · have h3 := hm i j
          have h4 := hm' i j
          push_cast at h3 h4
          split_ifs with h1 h2 h2
          · exact absurd (lt_trans h1 h2) (not_lt.2 (le_of_lt hlt))
          · left
            rcases h4 with h4 | h4
            · nlinarith
            · exact absurd h1 h4
          · right
            intro h; linarith
          · right; exact h2
      · intro i j
        rw [reflectPass_apply]
        rcases le_or_gt (b.2 j) (b.1 j) with hle | hlt
        · right
          have hx1 : ¬ x i j < b.1 j := fun h => absurd (hb i j (Or.inl h)) (not_lt.2 hle)
          have hx2 : ¬ b.2 j < x i j := fun h => absurd (hb i j (Or.inr h)) (not_lt.2 hle)
          rw [if_neg hx2, if_neg hx1]; exact hx2
        · have h3 := hm i j
          have h4 := hm' i j
          push_cast at h3 h4
          split_ifs with h1 h2 h2
          · exact absurd (lt_trans h1 h2) (not_lt.2 (le_of_lt hlt))
          · right
            intro h; linarith
          · left
            rcases h3 with h3 | h3
            · nlinarith
            · exact absurd h2 h3
          · right; exact h1
    · exact ⟨x, rfl⟩

/-- A coordinate that is out of a degenerate box stays out forever. -/
theorem bhReflective_diverges {b : Bounds d K} (m : Nat) {x : Mat n d K} (i : Fin n) (j : Fin d)
    (hb : b.2 j ≤ b.1 j) (hx : x i j < b.1 j ∨ b.2 j < x i j) :
    bhReflective b m x = .error .diverges := by
  induction m generalizing x with
  | zero =>
    unfold bhReflective
    rw [if_pos ((anyOut_iff b x).2 ⟨i, j, hx⟩)]
  | succ m ih =>
    unfold bhReflective
    rw [if_pos ((anyOut_iff b x).2 ⟨i, j, hx⟩)]
    apply ih
    rcases eq_or_lt_of_le hb with he | hlt
    · rw [reflectPass_apply, he]
      rw [he] at hx
      rcases hx with h | h
      · right; rw [if_neg (not_lt.2 (le_of_lt h)), if_pos h]; linarith
      · left; rw [if_pos h, if_neg (not_lt.2 (le_of_lt h))]; linarith
    · rcases lt_or_ge (reflectPass b x i j) (b.1 j) with h | h
      · left; exact h
      · right; exact lt_of_lt_of_le hlt h

theorem exists_passes [FloorRing K] {b : Bounds d K} {x : Mat n d K}
    (hb : ∀ i j, x i j < b.1 j ∨ b.2 j < x i j → b.1 j < b.2 j) :
    ∃ m y, bhReflective b m x = .ok y := by
  have hA : Archimedean K := inferInstance
  have h1 : ∀ i j, ∃ m : Nat, (x i j < b.1 j ∨ b.2 j < x i j) →
      b.1 j - x i j ≤ m * (b.2 j - b.1 j) ∧ x i j - b.2 j ≤ m * (b.2 j - b.1 j) := by
    intro i j
    by_cases h : x i j < b.1 j ∨ b.2 j < x i j
    · have hw : 0 < b.2 j - b.1 j := sub_pos.2 (hb i j h)
      obtain ⟨m1, hm1⟩ := Archimedean.arch (b.1 j - x i j) hw
      obtain ⟨m2, hm2⟩ := Archimedean.arch (x i j - b.2 j) hw
      refine ⟨m1 + m2, fun _ => ?_⟩
      rw [nsmul_eq_mul] at hm1 hm2
      have p1 : (0 : K) ≤ m1 * (b.2 j - b.1 j) := by positivity
      have p2 : (0 : K) ≤ m2 * (b.2 j - b.1 j) := by positivity
      push_cast
      constructor <;> linarith [add_mul (m1 : K) m2 (b.2 j - b.1 j)]
    · exact ⟨0, fun h' => absurd h' h⟩
  choose f hf using h1
  refine ⟨∑ i, ∑ j, f i j, bhReflective_terminates _ hb ?_ ?_⟩
  all_goals
    intro i j
    have hle : f i j ≤ ∑ i, ∑ j, f i j :=
      le_trans (Finset.single_le_sum (f := fun j => f i j) (fun _ _ => Nat.zero_le _)
          (Finset.mem_univ j))
        (Finset.single_le_sum (f := fun i => ∑ j, f i j) (fun _ _ => Nat.zero_le _)
          (Finset.mem_univ i))
    have hleK : ((f i j : Nat) : K) ≤ ((∑ i, ∑ j, f i j : Nat) : K) := Nat.cast_le.2 hle
  · by_cases h : x i j < b.1 j
    · left
      have hw : 0 ≤ b.2 j - b.1 j := sub_nonneg.2 (le_of_lt (hb i j (Or.inl h)))
      exact le_trans (hf i j (Or.inl h)).1 (mul_le_mul_of_nonneg_right hleK hw)
    · right; exact h
  · by_cases h : b.2 j < x i j
    · left
      have hw : 0 ≤ b.2 j - b.1 j := sub_nonneg.2 (le_of_lt (hb i j (Or.inr h)))
      exact le_trans (hf i j (Or.inr h)).2 (mul_le_mul_of_nonneg_right hleK hw)
    · right; exact h

/-! ### periodic -/

theorem npMod_spec [FloorRing K] (a s : K) (hs : 0 < s) : 0 ≤ npMod a s ∧ npMod a s < s := by
  unfold npMod
  have h1 := Int.floor_le (a / s)
  have h2 := Int.lt_floor_add_one (a / s)
  have e : a = s * (a / s) := by field_simp
  constructor
  · have := mul_le_mul_of_nonneg_left h1 (le_of_lt hs); linarith
  · have := mul_lt_mul_of_pos_left h2 hs; rw [mul_add] at this; linarith

theorem bhPeriodic_apply [FloorRing K] {b : Bounds d K} {x y : Mat n d K}
    (h : bhPeriodic b x = .ok y) (i : Fin n) (j : Fin d) :
    y i j = (let p1 := if x i j < b.1 j then b.2 j - npMod (b.1 j - x i j) |b.2 j - b.1 j| else x i j
      if b.2 j < x i j then b.1 j + npMod (p1 - b.2 j) |b.2 j - b.1 j| else p1) := by
  unfold bhPeriodic at h
  split at h
  · cases h
  · cases h
    simp [isLow, isHigh]

theorem bhPeriodic_ok_iff [FloorRing K] (b : Bounds d K) (x : Mat n d K) :
    (∃ y, bhPeriodic b x = .ok y) ↔
      ∀ i j, x i j < b.1 j ∨ b.2 j < x i j → b.1 j ≠ b.2 j := by
  unfold bhPeriodic
  split
  · next h =>
    simp only [List.any_eq_true, List.mem_finRange, true_and, Bool.and_eq_true, Bool.or_eq_true,
      isLow_iff, isHigh_iff, decide_eq_true_eq, abs_eq_zero, sub_eq_zero] at h
    obtain ⟨i, j, h1, h2⟩ := h
    constructor
    · rintro ⟨y, hy⟩; cases hy
    · intro hh; exact absurd h2.symm (hh i j h1)
  · next h =>
    simp only [List.any_eq_true, List.mem_finRange, true_and, Bool.and_eq_true, Bool.or_eq_true,
      isLow_iff, isHigh_iff, decide_eq_true_eq, abs_eq_zero, sub_eq_zero] at h
    constructor
    · intro _ i j h1 h2
      exact h ⟨i, j, h1, h2.symm⟩
    · intro _; exact ⟨_, rfl⟩

theorem bhPeriodic_spec [FloorRing K] {b : Bounds d K} {x y : Mat n d K}
    (h : bhPeriodic b x = .ok y) (i : Fin n) (j : Fin d) (hb : b.1 j ≤ b.2 j) :
    b.1 j ≤ y i j ∧ y i j ≤ b.2 j ∧ ∃ m : ℤ, y i j = x i j + m * (b.2 j - b.1 j) := by
  have hne := (bhPeriodic_ok_iff b x).1 ⟨y, h⟩ i j
  rw [bhPeriodic_apply h i j]
  dsimp only
  by_cases h1 : b.2 j < x i j
  · have h2 : ¬ x i j < b.1 j := not_lt.2 (le_trans hb (le_of_lt h1))
    have hw : 0 < b.2 j - b.1 j := sub_pos.2 (lt_of_le_of_ne hb (hne (Or.inr h1)))
    rw [if_pos h1, if_neg h2, abs_of_pos hw]
    have hs := npMod_spec (x i j - b.2 j) (b.2 j - b.1 j) hw
    refine ⟨by linarith, by linarith, -⌊(x i j - b.2 j) / (b.2 j - b.1 j)⌋ - 1, ?_⟩
    unfold npMod; push_cast; ring
  · rw [if_neg h1]
    by_cases h2 : x i j < b.1 j
    · have hw : 0 < b.2 j - b.1 j := sub_pos.2 (lt_of_le_of_ne hb (hne (Or.inl h2)))
      rw [if_pos h2, abs_of_pos hw]
      have hs := npMod_spec (b.1 j - x i j) (b.2 j - b.1 j) hw
      refine ⟨by linarith, by linarith, ⌊(b.1 j - x i j) / (b.2 j - b.1 j)⌋ + 1, ?_⟩
      unfold npMod; push_cast; ring
    · rw [if_neg h2]
      exact ⟨not_lt.1 h2, not_lt.1 h1, 0, by simp⟩

/-! ### random -/

theorem bhRandom_inBox (b : Bounds d K) (hb : ∀ j, b.1 j ≤ b.2 j) (u l : Vec d K)
    (hu : ∀ j, 0 ≤ u j ∧ u j ≤ 1) (hl : ∀ j, 0 ≤ l j ∧ l j ≤ 1) (x : Mat n d K) :
    InBox b (bhRandom b u l x) := by
  intro i j
  have key : ∀ t : K, 0 ≤ t ∧ t ≤ 1 →
      b.1 j ≤ (b.2 j - b.1 j) * t + b.1 j ∧ (b.2 j - b.1 j) * t + b.1 j ≤ b.2 j := by
    intro t ht
    have hw : 0 ≤ b.2 j - b.1 j := sub_nonneg.2 (hb j)
    constructor
    · have := mul_nonneg hw ht.1; linarith
    · have := mul_le_mul_of_nonneg_left ht.2 hw; linarith
  unfold bhRandom
  dsimp only
  by_cases h1 : rowLow b x i = true
  · rw [if_pos h1]; exact key _ (hl j)
  · rw [if_neg h1]
    by_cases h2 : rowHigh b x i = true
    · rw [if_pos h2]; exact key _ (hu j)
    · rw [if_neg h2]
      rw [rowLow_iff] at h1; rw [rowHigh_iff] at h2
      exact ⟨not_lt.1 fun h => h1 ⟨j, h⟩, not_lt.1 fun h => h2 ⟨j, h⟩⟩

/-! ### intermediate -/

theorem bhIntermediate_apply {b : Bounds d K} {m x y : Mat n d K} {mem' : Option (Mat n d K)}
    (h : bhIntermediate b (some m) x = (mem', .ok y)) :
    mem' = some y ∧ ∀ i j, y i j = if b.2 j < x i j then 1 / 2 * (m i j + b.2 j)
      else if x i j < b.1 j then 1 / 2 * (m i j + b.1 j) else x i j := by
  unfold bhIntermediate at h
  cases h
  refine ⟨rfl, fun i j => ?_⟩
  simp [isLow, isHigh]

theorem bhIntermediate_inBox {b : Bounds d K} (hb : ∀ j, b.1 j ≤ b.2 j) {m x y : Mat n d K}
    {mem' : Option (Mat n d K)} (hm : InBox b m)
    (h : bhIntermediate b (some m) x = (mem', .ok y)) : InBox b y := by
  obtain ⟨-, h⟩ := bhIntermediate_apply h
  intro i j
  rw [h]
  have := hm i j
  have := hb j
  split_ifs with h1 h2
  · constructor <;> linarith
  · constructor <;> linarith
  · exact ⟨not_lt.1 h2, not_lt.1 h1⟩

/-! ### shrink -/

theorem rowMin_fold (l : List K) (m : K) :
    l.foldl (fun acc a => match acc with
      | none => some a
      | some m => some (min m a)) (some m) = some (l.foldl min m) := by
  induction l generalizing m with
  | nil => rfl
  | cons a l ih => simp only [List.foldl_cons]; exact ih _

theorem foldl_min_spec (l : List K) (m : K) :
    l.foldl min m ≤ m ∧ (∀ a ∈ l, l.foldl min m ≤ a) ∧ (l.foldl min m = m ∨ l.foldl min m ∈ l) := by
  induction l generalizing m with
  | nil => simp
  | cons a l ih =>
    simp only [List.foldl_cons]
    obtain ⟨h1, h2, h3⟩ := ih (min m a)
    refine ⟨le_trans h1 (min_le_left _ _), ?_, ?_⟩
    · intro c hc
      rw [List.mem_cons] at hc
      rcases hc with rfl | hc
      · exact le_trans h1 (min_le_right _ _)
      · exact h2 c hc
    · rcases h3 with h3 | h3
      · rcases min_choice m a with h | h
        · left; rw [h3, h]
        · right; rw [h3, h]; simp
      · right; exact List.mem_cons_of_mem _ h3

/-- `np.amin` of a non-empty row. -/
theorem rowMin_spec (v : Vec d K) (hd : 0 < d) :
    ∃ s, rowMin v = some s ∧ (∀ j, s ≤ v j) ∧ ∃ j, s = v j := by
  unfold rowMin
  obtain ⟨e, rfl⟩ : ∃ e, d = e + 1 := ⟨d - 1, by omega⟩
  rw [List.finRange_succ]
  simp only [List.map_cons, List.foldl_cons]
  obtain ⟨h1, h2, h3⟩ := foldl_min_spec (((List.finRange e).map Fin.succ).map v) (v 0)
  refine ⟨_, rowMin_fold _ _, ?_, ?_⟩
  · intro j
    refine Fin.cases h1 (fun j => ?_) j
    exact h2 _ (by simp)
  · rcases h3 with h3 | h3
    · exact ⟨0, h3⟩
    · rw [List.mem_map] at h3
      obtain ⟨a, -, ha⟩ := h3
      exact ⟨a, ha.symm⟩

theorem shrinkSigma_apply (b : Bounds d K) (m x : Mat n d K) (i : Fin n) (j : Fin d) :
    shrinkSigma b m x i j =
      if b.2 j < x i j then (b.2 j - m i j) / (x i j - m i j)
      else if x i j < b.1 j then (b.1 j - m i j) / (x i j - m i j) else 1 := by
  simp [shrinkSigma, isLow, isHigh]

/-- The coefficient of a coordinate is the largest one keeping that coordinate inside. -/
theorem shrinkSigma_spec {b : Bounds d K} {m x : Mat n d K} (hm : InBox b m) (i : Fin n)
    (j : Fin d) :
    0 ≤ shrinkSigma b m x i j ∧ shrinkSigma b m x i j ≤ 1 ∧
      ∀ t, 0 ≤ t → t ≤ 1 → ((b.1 j ≤ m i j + t * (x i j - m i j) ∧
        m i j + t * (x i j - m i j) ≤ b.2 j) ↔ t ≤ shrinkSigma b m x i j) := by
  have hmij := hm i j
  rw [shrinkSigma_apply]
  split_ifs with h1 h2
  · have hv : 0 < x i j - m i j := by linarith
    refine ⟨div_nonneg (by linarith) (le_of_lt hv), ?_, ?_⟩
    · rw [div_le_one hv]; linarith
    · intro t ht0 ht1
      rw [le_div_iff₀ hv]
      have := mul_nonneg ht0 (le_of_lt hv)
      constructor
      · rintro ⟨-, h⟩; linarith
      · intro h; constructor <;> linarith
  · have hv : x i j - m i j < 0 := by linarith
    refine ⟨div_nonneg_of_nonpos (by linarith) (le_of_lt hv), ?_, ?_⟩
    · rw [div_le_one_of_neg hv]; linarith
    · intro t ht0 ht1
      rw [le_div_iff_of_neg hv]
      have := mul_nonpos_of_nonneg_of_nonpos ht0 (le_of_lt hv)
      constructor
      · rintro ⟨h, -⟩; linarith
      · intro h; constructor <;> linarith
  · refine ⟨zero_le_one, le_refl _, fun t ht0 ht1 => ⟨fun _ => ht1, fun _ => ?_⟩⟩
    have hx1 := not_lt.1 h1
    have hx2 := not_lt.1 h2
    constructor
    · nlinarith [mul_nonneg ht0 (sub_nonneg.2 hx2), mul_nonneg (sub_nonneg.2 ht1) (sub_nonneg.2 hmij.1)]
    · nlinarith [mul_nonneg ht0 (sub_nonneg.2 hx1), mul_nonneg (sub_nonneg.2 ht1) (sub_nonneg.2 hmij.2)]

/-- `shrink` with an in-bounds memory: totality and the exact result. -/
theorem bhShrink_spec (hd : 0 < d) {b : Bounds d K} {m : Mat n d K} (hm : InBox b m)
    (x : Mat n d K) :
    ∃ y, bhShrink b (some m) x = (some y, .ok y) ∧ ∀ i,
      ((∀ j, b.1 j ≤ x i j ∧ x i j ≤ b.2 j) → y i = x i) ∧
      ((∃ j, x i j < b.1 j ∨ b.2 j < x i j) → ∃ t, 0 ≤ t ∧ t ≤ 1 ∧
        (∀ j, y i j = m i j + t * (x i j - m i j)) ∧ (∀ j, t ≤ shrinkSigma b m x i j) ∧
        ∃ j, t = shrinkSigma b m x i j) := by
  unfold bhShrink
  simp only
  have h1 : ¬ ((List.finRange n).any fun i => (List.finRange d).any fun j =>
      (isLow b x i j || isHigh b x i j) && decide (x i j - m i j = 0)) = true := by
    simp only [List.any_eq_true, List.mem_finRange, true_and, Bool.and_eq_true, Bool.or_eq_true,
      isLow_iff, isHigh_iff, decide_eq_true_eq]
    rintro ⟨i, j, h, h0⟩
    have := hm i j
    have : x i j = m i j := sub_eq_zero.1 h0
    rcases h with h | h <;> linarith
  rw [if_neg h1, if_neg (by omega)]
  refine ⟨_, rfl, fun i => ⟨?_, ?_⟩⟩
  · intro hin
    funext j
    have h2 : ¬ (rowLow b x i = true ∨ rowHigh b x i = true) := by
      rw [rowLow_iff, rowHigh_iff]
      rintro (⟨j, h⟩ | ⟨j, h⟩)
      · exact absurd h (not_lt.2 (hin j).1)
      · exact absurd h (not_lt.2 (hin j).2)
    simp only [Bool.or_eq_true]
    rw [if_neg h2]
  · rintro ⟨j0, hj0⟩
    have h2 : rowLow b x i = true ∨ rowHigh b x i = true := by
      rw [rowLow_iff, rowHigh_iff]
      rcases hj0 with h | h
      · left; exact ⟨j0, h⟩
      · right; exact ⟨j0, h⟩
    obtain ⟨t, ht, ht1, j1, ht2⟩ := rowMin_spec (shrinkSigma b m x i) hd
    refine ⟨t, ?_, ?_, ?_, ht1, j1, ht2⟩
    · rw [ht2]; exact (shrinkSigma_spec hm i j1).1
    · rw [ht2]; exact (shrinkSigma_spec hm i j1).2.1
    · intro j
      simp only [Bool.or_eq_true]
      rw [if_pos h2, ht]

theorem bhShrink_inBox (hd : 0 < d) {b : Bounds d K} {m : Mat n d K} (hm : InBox b m)
    (x : Mat n d K) : ∃ y, bhShrink b (some m) x = (some y, .ok y) ∧ InBox b y := by
  obtain ⟨y, h1, h2⟩ := bhShrink_spec hd hm x
  refine ⟨y, h1, fun i j => ?_⟩
  by_cases hin : ∀ j, b.1 j ≤ x i j ∧ x i j ≤ b.2 j
  · rw [(h2 i).1 hin]; exact hin j
  · have : ∃ j, x i j < b.1 j ∨ b.2 j < x i j := by
      by_contra hcon
      push Not at hcon
      exact hin hcon
    obtain ⟨t, h3, h4, h5, h6, -⟩ := (h2 i).2 this
    rw [h5]
    exact ((shrinkSigma_spec hm i j).2.2 t h3 h4).2 (h6 j)

end PySwarms
