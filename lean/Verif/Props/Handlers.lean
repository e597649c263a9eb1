import Verif.Lemmas.Handlers
import Verif.Examples
import Mathlib.Data.Rat.Floor
import Mathlib.Data.Fin.VecNotation
import Mathlib.Tactic.Tauto

/-!
# Boundary and velocity handlers (C14–C20, C24)

`bhCall strategy mem b r x` is the call `BoundaryHandler(strategy)(x, bounds=b)` on a handler whose
memory is `mem`, where `r` holds the random draws; it returns the new memory and the result.
-/

set_option linter.unusedSectionVars false

namespace PySwarms

variable {n d : Nat} {K : Type} [Field K] [LinearOrder K] [IsStrictOrderedRing K] [FloorRing K]

/-- The six documented strategies. -/
def bhStrategies : List String :=
  ["nearest", "reflective", "shrink", "random", "intermediate", "periodic"]

/-! ## C14 -/

/-- C14, `nearest`, `reflective`, `random`, `periodic`: whatever the input and the memory, the
result is inside the bounds and the memory is untouched. -/
theorem C14_memoryless (strategy : String)
    (hs : strategy ∈ ["nearest", "reflective", "random", "periodic"])
    (mem mem' : Option (Mat n d K)) (b : Bounds d K) (hb : ProperBounds b) (r : BHDraw d K)
    (hr : r.Legal) (x y : Mat n d K) (h : bhCall strategy mem b r x = (mem', .ok y)) :
    InBox b y ∧ mem' = mem := by
  have hle : ∀ j, b.1 j ≤ b.2 j := fun j => le_of_lt (hb j)
  simp only [List.mem_cons, List.not_mem_nil, or_false] at hs
  rcases hs with rfl | rfl | rfl | rfl
  · rw [bhCall, if_pos rfl] at h
    cases h
    exact ⟨bhNearest_inBox b hle x, rfl⟩
  · rw [bhCall, if_neg (by decide), if_pos rfl] at h
    rw [Prod.mk.injEq] at h
    exact ⟨(bhReflective_ok h.2).1, h.1.symm⟩
  · rw [bhCall, if_neg (by decide), if_neg (by decide), if_neg (by decide), if_pos rfl] at h
    cases h
    exact ⟨bhRandom_inBox b hle _ _ (fun j => ⟨(hr.1 j).1, le_of_lt (hr.1 j).2⟩)
      (fun j => ⟨(hr.2 j).1, le_of_lt (hr.2 j).2⟩) x, rfl⟩
  · rw [bhCall, if_neg (by decide), if_neg (by decide), if_neg (by decide), if_neg (by decide),
      if_neg (by decide), if_pos rfl] at h
    rw [Prod.mk.injEq] at h
    refine ⟨fun i j => ?_, h.1.symm⟩
    have := bhPeriodic_spec h.2 i j (hle j)
    exact ⟨this.1, this.2.1⟩

/-- C14, `shrink`, `intermediate`: with the remembered previous position inside the bounds the
result is inside the bounds, and it becomes the new remembered position. -/
theorem C14_memory (strategy : String) (hs : strategy ∈ ["shrink", "intermediate"])
    (m : Mat n d K) (mem' : Option (Mat n d K)) (b : Bounds d K) (hb : ProperBounds b)
    (hm : InBox b m) (r : BHDraw d K) (x y : Mat n d K)
    (h : bhCall strategy (some m) b r x = (mem', .ok y)) : InBox b y ∧ mem' = some y := by
  have hle : ∀ j, b.1 j ≤ b.2 j := fun j => le_of_lt (hb j)
  simp only [List.mem_cons, List.not_mem_nil, or_false] at hs
  rcases hs with rfl | rfl
  · rw [bhCall, if_neg (by decide), if_neg (by decide), if_pos rfl] at h
    rcases Nat.eq_zero_or_pos d with rfl | hd
    · unfold bhShrink at h
      simp only [if_true] at h
      split at h <;> cases h
    · obtain ⟨z, h1, h2⟩ := bhShrink_inBox hd hm x
      rw [h1] at h
      cases h
      exact ⟨h2, rfl⟩
  · rw [bhCall, if_neg (by decide), if_neg (by decide), if_neg (by decide), if_neg (by decide),
      if_pos rfl] at h
    exact ⟨bhIntermediate_inBox hle hm h, (bhIntermediate_apply h).1⟩

/-- C14, totality: with proper bounds, a memory inside the bounds and at least one dimension no
documented strategy raises; `reflective` finishes its loop once `r.passes` is large enough (C17). -/
theorem C14_total (strategy : String) (hs : strategy ∈ bhStrategies) (hd : 0 < d) (m : Mat n d K)
    (b : Bounds d K) (hb : ProperBounds b) (hm : InBox b m) (x : Mat n d K) :
    ∃ k, ∀ r : BHDraw d K, r.passes = k →
      ∃ mem' y, bhCall strategy (some m) b r x = (mem', .ok y) := by
  simp only [bhStrategies, List.mem_cons, List.not_mem_nil, or_false] at hs
  rcases hs with rfl | rfl | rfl | rfl | rfl | rfl
  · exact ⟨0, fun r _ => ⟨_, _, by rw [bhCall, if_pos rfl]⟩⟩
  · obtain ⟨k, y, hk⟩ := exists_passes (b := b) (x := x) (fun i j _ => hb j)
    refine ⟨k, fun r hr => ⟨some m, y, ?_⟩⟩
    rw [bhCall, if_neg (by decide), if_pos rfl, hr, hk]
  · obtain ⟨y, h1, -⟩ := bhShrink_inBox hd hm x
    refine ⟨0, fun r _ => ⟨some y, y, ?_⟩⟩
    rw [bhCall, if_neg (by decide), if_neg (by decide), if_pos rfl, h1]
  · exact ⟨0, fun r _ => ⟨_, _, by
      rw [bhCall, if_neg (by decide), if_neg (by decide), if_neg (by decide), if_pos rfl]⟩⟩
  · refine ⟨0, fun r _ => ⟨_, _, by
      rw [bhCall, if_neg (by decide), if_neg (by decide), if_neg (by decide), if_neg (by decide),
        if_pos rfl, bhIntermediate]⟩⟩
  · obtain ⟨y, hy⟩ := (bhPeriodic_ok_iff b x).2 (fun i j _ => ne_of_lt (hb j))
    refine ⟨0, fun r _ => ⟨some m, y, ?_⟩⟩
    rw [bhCall, if_neg (by decide), if_neg (by decide), if_neg (by decide), if_neg (by decide),
      if_neg (by decide), if_pos rfl, hy]

/-- An unknown strategy name raises `KeyError`. -/
theorem C14_unknown_strategy (strategy : String) (hs : strategy ∉ bhStrategies)
    (mem : Option (Mat n d K)) (b : Bounds d K) (r : BHDraw d K) (x : Mat n d K) :
    bhCall strategy mem b r x = (mem, .error .keyError) := by
  simp only [bhStrategies, List.mem_cons, List.not_mem_nil, or_false, not_or] at hs
  obtain ⟨h1, h2, h3, h4, h5, h6⟩ := hs
  rw [bhCall, if_neg h1, if_neg h2, if_neg h3, if_neg h4, if_neg h5, if_neg h6]

/-! ## C15 -/

/-- C15, coordinates: `nearest`, `reflective`, `intermediate`, `periodic` return a coordinate that
is inside its bounds unchanged (whatever the other coordinates do). -/
theorem C15_coordinate (strategy : String)
    (hs : strategy ∈ ["nearest", "reflective", "intermediate", "periodic"])
    (mem mem' : Option (Mat n d K)) (b : Bounds d K) (r : BHDraw d K) (x y : Mat n d K)
    (h : bhCall strategy mem b r x = (mem', .ok y)) (i : Fin n) (j : Fin d)
    (hij : b.1 j ≤ x i j ∧ x i j ≤ b.2 j) : y i j = x i j := by
  have h1 : ¬ x i j < b.1 j := not_lt.2 hij.1
  have h2 : ¬ b.2 j < x i j := not_lt.2 hij.2
  simp only [List.mem_cons, List.not_mem_nil, or_false] at hs
  rcases hs with rfl | rfl | rfl | rfl
  · rw [bhCall, if_pos rfl] at h
    cases h
    rw [bhNearest_apply, if_neg h2, if_neg h1]
  · rw [bhCall, if_neg (by decide), if_pos rfl, Prod.mk.injEq] at h
    exact bhReflective_coord h.2 i j hij.1 hij.2
  · rw [bhCall, if_neg (by decide), if_neg (by decide), if_neg (by decide), if_neg (by decide),
      if_pos rfl] at h
    cases mem with
    | none => rw [bhIntermediate] at h; cases h; rfl
    | some m => rw [(bhIntermediate_apply h).2, if_neg h2, if_neg h1]
  · rw [bhCall, if_neg (by decide), if_neg (by decide), if_neg (by decide), if_neg (by decide),
      if_neg (by decide), if_pos rfl, Prod.mk.injEq] at h
    rw [bhPeriodic_apply h.2]
    simp only [if_neg h1, if_neg h2]

/-- C15, particles: every strategy returns a particle whose coordinates are all inside unchanged. -/
theorem C15_particle (strategy : String) (mem mem' : Option (Mat n d K)) (b : Bounds d K)
    (r : BHDraw d K) (x y : Mat n d K) (h : bhCall strategy mem b r x = (mem', .ok y)) (i : Fin n)
    (hi : ∀ j, b.1 j ≤ x i j ∧ x i j ≤ b.2 j) : y i = x i := by
  by_cases hs : strategy ∈ bhStrategies
  swap
  · rw [C14_unknown_strategy strategy hs] at h; cases h
  by_cases hs' : strategy ∈ ["nearest", "reflective", "intermediate", "periodic"]
  · funext j
    exact C15_coordinate strategy hs' mem mem' b r x y h i j (hi j)
  have hl : rowLow b x i = false := by
    rw [← Bool.not_eq_true, rowLow_iff]; rintro ⟨j, hj⟩; exact absurd hj (not_lt.2 (hi j).1)
  have hh : rowHigh b x i = false := by
    rw [← Bool.not_eq_true, rowHigh_iff]; rintro ⟨j, hj⟩; exact absurd hj (not_lt.2 (hi j).2)
  have hs2 : strategy = "shrink" ∨ strategy = "random" := by
    simp only [bhStrategies, List.mem_cons, List.not_mem_nil, or_false, not_or] at hs hs'
    tauto
  rcases hs2 with rfl | rfl
  · rw [bhCall, if_neg (by decide), if_neg (by decide), if_pos rfl] at h
    unfold bhShrink at h
    cases mem with
    | none => cases h; rfl
    | some m =>
      simp only at h
      split at h
      · cases h
      · split at h
        · cases h
        · rw [Prod.mk.injEq] at h
          have h' := h.2
          cases h'
          funext j
          simp only [hl, hh, Bool.or_self, Bool.false_eq_true, if_false]
  · rw [bhCall, if_neg (by decide), if_neg (by decide), if_neg (by decide), if_pos rfl] at h
    cases h
    funext j
    simp only [bhRandom, hl, hh, Bool.false_eq_true, if_false]

/-- C15, swarms: if all particles are inside, every documented strategy returns the same matrix
(and does not raise), except that `shrink` needs at least one dimension. -/
theorem C15_identity (strategy : String) (hs : strategy ∈ bhStrategies) (hd : 0 < d)
    (mem : Option (Mat n d K)) (b : Bounds d K) (r : BHDraw d K) (x : Mat n d K)
    (hx : InBox b x) : (bhCall strategy mem b r x).2 = .ok x := by
  have hok : ∃ mem' y, bhCall strategy mem b r x = (mem', .ok y) := by
    simp only [bhStrategies, List.mem_cons, List.not_mem_nil, or_false] at hs
    rcases hs with rfl | rfl | rfl | rfl | rfl | rfl
    · exact ⟨_, _, by rw [bhCall, if_pos rfl]⟩
    · exact ⟨_, _, by
        rw [bhCall, if_neg (by decide), if_pos rfl, bhReflective_inBox_eq hx]⟩
    · have : ∃ y, bhShrink b mem x = (some y, .ok y) := by
        unfold bhShrink
        cases mem with
        | none => exact ⟨x, rfl⟩
        | some m =>
          simp only
          have h1 : ¬ ((List.finRange n).any fun i => (List.finRange d).any fun j =>
              (isLow b x i j || isHigh b x i j) && decide (x i j - m i j = 0)) = true := by
            simp only [List.any_eq_true, List.mem_finRange, true_and, Bool.and_eq_true,
              Bool.or_eq_true, isLow_iff, isHigh_iff]
            rintro ⟨i, j, h | h, -⟩
            · exact absurd h (not_lt.2 (hx i j).1)
            · exact absurd h (not_lt.2 (hx i j).2)
          rw [if_neg h1, if_neg (by omega)]
          exact ⟨_, rfl⟩
      obtain ⟨y, hy⟩ := this
      exact ⟨some y, y, by
        rw [bhCall, if_neg (by decide), if_neg (by decide), if_pos rfl, hy]⟩
    · exact ⟨_, _, by
        rw [bhCall, if_neg (by decide), if_neg (by decide), if_neg (by decide), if_pos rfl]⟩
    · cases mem with
      | none => exact ⟨_, _, by
          rw [bhCall, if_neg (by decide), if_neg (by decide), if_neg (by decide),
            if_neg (by decide), if_pos rfl, bhIntermediate]⟩
      | some m => exact ⟨_, _, by
          rw [bhCall, if_neg (by decide), if_neg (by decide), if_neg (by decide),
            if_neg (by decide), if_pos rfl, bhIntermediate]⟩
    · obtain ⟨y, hy⟩ := (bhPeriodic_ok_iff b x).2 (fun i j h => absurd h (by
        rintro (h | h)
        · exact absurd h (not_lt.2 (hx i j).1)
        · exact absurd h (not_lt.2 (hx i j).2)))
      exact ⟨mem, y, by
        rw [bhCall, if_neg (by decide), if_neg (by decide), if_neg (by decide),
          if_neg (by decide), if_neg (by decide), if_pos rfl, hy]⟩
  obtain ⟨mem', y, h⟩ := hok
  have : y = x := by
    funext i
    exact C15_particle strategy mem mem' b r x y h i (hx i)
  rw [h, this]

/-! ## C16 -/

/-- C16: the call returns the matrix whose coordinates are the points of `[lb, ub]` closest to the
input coordinates: inside, at least as close as any other point of the interval, and the only such
point. -/
theorem C16_projection (mem : Option (Mat n d K)) (b : Bounds d K) (hb : ∀ j, b.1 j ≤ b.2 j)
    (r : BHDraw d K) (x : Mat n d K) :
    ∃ y, bhCall "nearest" mem b r x = (mem, .ok y) ∧ InBox b y ∧
      ∀ i j z, b.1 j ≤ z → z ≤ b.2 j → |x i j - y i j| ≤ |x i j - z| ∧
        (|x i j - z| = |x i j - y i j| → z = y i j) := by
  refine ⟨bhNearest b x, by rw [bhCall, if_pos rfl], bhNearest_inBox b hb x, ?_⟩
  intro i j z hz1 hz2
  have := hb j
  rw [bhNearest_apply]
  split_ifs with h1 h2
  · rw [abs_of_nonneg (by linarith), abs_of_nonneg (by linarith)]
    exact ⟨by linarith, fun h => by linarith⟩
  · rw [abs_of_nonpos (by linarith), abs_of_nonpos (by linarith)]
    exact ⟨by linarith, fun h => by linarith⟩
  · rw [sub_self, abs_zero]
    refine ⟨abs_nonneg _, fun h => ?_⟩
    rw [abs_eq_zero] at h
    linarith

/-- C16: applying `nearest` to its own result changes nothing. -/
theorem C16_idempotent (mem : Option (Mat n d K)) (b : Bounds d K) (hb : ∀ j, b.1 j ≤ b.2 j)
    (r r' : BHDraw d K) (x y : Mat n d K)
    (h : bhCall "nearest" mem b r x = (mem, .ok y)) :
    bhCall "nearest" mem b r' y = (mem, .ok y) := by
  rw [bhCall, if_pos rfl] at h
  cases h
  rw [bhCall, if_pos rfl]
  congr 2
  funext i j
  have := bhNearest_inBox b hb x i j
  rw [bhNearest_apply, if_neg (not_lt.2 this.2), if_neg (not_lt.2 this.1)]

/-- C16: `nearest` is monotone in every coordinate. -/
theorem C16_monotone (mem : Option (Mat n d K)) (b : Bounds d K) (hb : ∀ j, b.1 j ≤ b.2 j)
    (r : BHDraw d K) (x x' y y' : Mat n d K)
    (h : bhCall "nearest" mem b r x = (mem, .ok y))
    (h' : bhCall "nearest" mem b r x' = (mem, .ok y')) (i : Fin n) (j : Fin d)
    (hx : x i j ≤ x' i j) : y i j ≤ y' i j := by
  rw [bhCall, if_pos rfl] at h h'
  cases h
  cases h'
  have := hb j
  rw [bhNearest_apply, bhNearest_apply]
  split_ifs <;> linarith

/-! ## C17 -/

/-- C17, termination: the `while` loop of `reflective` ends (after some number of passes, with a
result) if and only if every out-of-bounds coordinate has `lb < ub`. -/
theorem C17_terminates_iff (mem : Option (Mat n d K)) (b : Bounds d K) (u l : Vec d K)
    (x : Mat n d K) :
    (∃ passes y, bhCall "reflective" mem b ⟨u, l, passes⟩ x = (mem, .ok y)) ↔
      ∀ i j, x i j < b.1 j ∨ b.2 j < x i j → b.1 j < b.2 j := by
  constructor
  · rintro ⟨m, y, h⟩ i j hij
    rw [bhCall, if_neg (by decide), if_pos rfl, Prod.mk.injEq] at h
    by_contra hcon
    rw [bhReflective_diverges m i j (not_lt.1 hcon) hij] at h
    cases h.2
  · intro hb
    obtain ⟨m, y, h⟩ := exists_passes hb
    exact ⟨m, y, by rw [bhCall, if_neg (by decide), if_pos rfl, h]⟩

/-- C17, otherwise the loop is still running after any number of passes. -/
theorem C17_diverges (mem : Option (Mat n d K)) (b : Bounds d K) (r : BHDraw d K) (x : Mat n d K)
    (i : Fin n) (j : Fin d) (hij : x i j < b.1 j ∨ b.2 j < x i j) (hb : b.2 j ≤ b.1 j) :
    bhCall "reflective" mem b r x = (mem, .error .diverges) := by
  rw [bhCall, if_neg (by decide), if_pos rfl, bhReflective_diverges r.passes i j hb hij]

/-- C17, speed: a swarm whose coordinates are at most `k` box widths outside is finished after `k`
passes. -/
theorem C17_passes (mem : Option (Mat n d K)) (b : Bounds d K) (hb : ProperBounds b)
    (r : BHDraw d K) (x : Mat n d K)
    (hx : ∀ i j, b.1 j - r.passes * (b.2 j - b.1 j) ≤ x i j ∧
      x i j ≤ b.2 j + r.passes * (b.2 j - b.1 j)) :
    ∃ y, bhCall "reflective" mem b r x = (mem, .ok y) := by
  obtain ⟨y, hy⟩ := bhReflective_terminates (b := b) r.passes (x := x) (fun i j _ => hb j)
    (fun i j => Or.inl (by linarith [(hx i j).1])) (fun i j => Or.inl (by linarith [(hx i j).2]))
  exact ⟨y, by rw [bhCall, if_neg (by decide), if_pos rfl, hy]⟩

/-- C17, result: every returned coordinate is inside its bounds and is a mirror image of the input
coordinate. -/
theorem C17_mirror (mem mem' : Option (Mat n d K)) (b : Bounds d K) (r : BHDraw d K)
    (x y : Mat n d K) (h : bhCall "reflective" mem b r x = (mem', .ok y)) (i : Fin n) (j : Fin d) :
    (b.1 j ≤ y i j ∧ y i j ≤ b.2 j) ∧ MirrorImage (b.1 j) (b.2 j) (x i j) (y i j) := by
  rw [bhCall, if_neg (by decide), if_pos rfl, Prod.mk.injEq] at h
  exact ⟨(bhReflective_ok h.2).1 i j, (bhReflective_ok h.2).2 i j⟩

/-- C17, one bounce: a coordinate less than one box width outside is simply mirrored at the bound
it crossed. -/
theorem C17_single_bounce (mem mem' : Option (Mat n d K)) (b : Bounds d K) (r : BHDraw d K)
    (x y : Mat n d K) (h : bhCall "reflective" mem b r x = (mem', .ok y)) (i : Fin n) (j : Fin d) :
    (x i j < b.1 j → 2 * b.1 j - b.2 j ≤ x i j → y i j = 2 * b.1 j - x i j) ∧
      (b.2 j < x i j → x i j ≤ 2 * b.2 j - b.1 j → y i j = 2 * b.2 j - x i j) := by
  rw [bhCall, if_neg (by decide), if_pos rfl, Prod.mk.injEq] at h
  have h := h.2
  constructor
  · intro h1 h2
    cases hp : r.passes with
    | zero =>
      rw [hp, bhReflective, if_pos ((anyOut_iff b x).2 ⟨i, j, Or.inl h1⟩)] at h; cases h
    | succ m =>
      rw [hp, bhReflective, if_pos ((anyOut_iff b x).2 ⟨i, j, Or.inl h1⟩)] at h
      have e : reflectPass b x i j = 2 * b.1 j - x i j := by
        rw [reflectPass_apply, if_pos h1, if_neg]
        exact not_lt.2 (by linarith)
      rw [bhReflective_coord h i j (by rw [e]; linarith) (by rw [e]; linarith), e]
  · intro h1 h2
    cases hp : r.passes with
    | zero =>
      rw [hp, bhReflective, if_pos ((anyOut_iff b x).2 ⟨i, j, Or.inr h1⟩)] at h; cases h
    | succ m =>
      rw [hp, bhReflective, if_pos ((anyOut_iff b x).2 ⟨i, j, Or.inr h1⟩)] at h
      have e : reflectPass b x i j = 2 * b.2 j - x i j := by
        rw [reflectPass_apply, if_pos h1, if_neg]
        exact not_lt.2 (by linarith)
      rw [bhReflective_coord h i j (by rw [e]; linarith) (by rw [e]; linarith), e]

/-! ## C18 -/

/-- C18: `periodic` succeeds exactly if no out-of-bounds coordinate has `lb = ub` (there the result
would be NaN). -/
theorem C18_defined_iff (mem : Option (Mat n d K)) (b : Bounds d K) (r : BHDraw d K)
    (x : Mat n d K) :
    ((∃ y, bhCall "periodic" mem b r x = (mem, .ok y)) ↔
      ∀ i j, x i j < b.1 j ∨ b.2 j < x i j → b.1 j ≠ b.2 j) ∧
    ((∃ i j, (x i j < b.1 j ∨ b.2 j < x i j) ∧ b.1 j = b.2 j) →
      bhCall "periodic" mem b r x = (mem, .error .nonFinite)) := by
  have e : bhCall "periodic" mem b r x = (mem, bhPeriodic b x) := by
    rw [bhCall, if_neg (by decide), if_neg (by decide), if_neg (by decide), if_neg (by decide),
      if_neg (by decide), if_pos rfl]
  refine ⟨?_, ?_⟩
  · rw [← bhPeriodic_ok_iff, e]
    constructor
    · rintro ⟨y, h⟩; rw [Prod.mk.injEq] at h; exact ⟨y, h.2⟩
    · rintro ⟨y, h⟩; exact ⟨y, by rw [h]⟩
  · rintro ⟨i, j, h1, h2⟩
    rw [e, bhPeriodic, if_pos]
    simp only [List.any_eq_true, List.mem_finRange, true_and, Bool.and_eq_true, Bool.or_eq_true,
      isLow_iff, isHigh_iff, decide_eq_true_eq, abs_eq_zero, sub_eq_zero]
    exact ⟨i, j, h1, h2.symm⟩

/-- C18: every returned coordinate is inside its bounds and differs from the input coordinate by an
integer multiple of the box width. -/
theorem C18_wraps (mem mem' : Option (Mat n d K)) (b : Bounds d K) (r : BHDraw d K)
    (x y : Mat n d K) (h : bhCall "periodic" mem b r x = (mem', .ok y)) (i : Fin n) (j : Fin d)
    (hb : b.1 j ≤ b.2 j) :
    (b.1 j ≤ y i j ∧ y i j ≤ b.2 j) ∧ ∃ m : ℤ, y i j = x i j + m * (b.2 j - b.1 j) := by
  rw [bhCall, if_neg (by decide), if_neg (by decide), if_neg (by decide), if_neg (by decide),
    if_neg (by decide), if_pos rfl, Prod.mk.injEq] at h
  have := bhPeriodic_spec h.2 i j hb
  exact ⟨⟨this.1, this.2.1⟩, this.2.2⟩

/-! ## C19 -/

/-- C19, `shrink`: a particle that is inside keeps the proposed position; an offending particle is
put on the line from the previous to the proposed position, at the largest factor in `[0,1]` for
which all its coordinates are inside.  The result is remembered. -/
theorem C19_shrink (hd : 0 < d) (m : Mat n d K) (b : Bounds d K) (hm : InBox b m)
    (r : BHDraw d K) (x : Mat n d K) :
    ∃ y, bhCall "shrink" (some m) b r x = (some y, .ok y) ∧ ∀ i, ∃ t, 0 ≤ t ∧ t ≤ 1 ∧
      (∀ j, y i j = m i j + t * (x i j - m i j)) ∧ (∀ j, b.1 j ≤ y i j ∧ y i j ≤ b.2 j) ∧
      ∀ t', 0 ≤ t' → t' ≤ 1 → (∀ j, b.1 j ≤ m i j + t' * (x i j - m i j) ∧
        m i j + t' * (x i j - m i j) ≤ b.2 j) → t' ≤ t := by
  obtain ⟨y, h1, h2⟩ := bhShrink_spec hd hm x
  refine ⟨y, by rw [bhCall, if_neg (by decide), if_neg (by decide), if_pos rfl, h1], fun i => ?_⟩
  by_cases hin : ∀ j, b.1 j ≤ x i j ∧ x i j ≤ b.2 j
  · refine ⟨1, zero_le_one, le_refl _, fun j => by rw [(h2 i).1 hin]; ring, fun j => ?_,
      fun t' _ h _ => h⟩
    rw [(h2 i).1 hin]; exact hin j
  · have : ∃ j, x i j < b.1 j ∨ b.2 j < x i j := by
      by_contra hcon
      push Not at hcon
      exact hin hcon
    obtain ⟨t, h3, h4, h5, h6, j, h7⟩ := (h2 i).2 this
    refine ⟨t, h3, h4, h5, fun j => ?_, fun t' h8 h9 h10 => ?_⟩
    · rw [h5]; exact ((shrinkSigma_spec hm i j).2.2 t h3 h4).2 (h6 j)
    · rw [h7]; exact ((shrinkSigma_spec hm i j).2.2 t' h8 h9).1 (h10 j)

/-- C19, `intermediate`: violated coordinates become the midpoint of the previous coordinate and
the violated bound; the others are kept. -/
theorem C19_intermediate (m : Mat n d K) (b : Bounds d K) (hb : ∀ j, b.1 j ≤ b.2 j)
    (r : BHDraw d K) (x : Mat n d K) :
    ∃ y, bhCall "intermediate" (some m) b r x = (some y, .ok y) ∧ ∀ i j,
      (x i j < b.1 j → y i j = (m i j + b.1 j) / 2) ∧
      (b.2 j < x i j → y i j = (m i j + b.2 j) / 2) ∧
      (b.1 j ≤ x i j → x i j ≤ b.2 j → y i j = x i j) := by
  have e : bhCall "intermediate" (some m) b r x = bhIntermediate b (some m) x := by
    rw [bhCall, if_neg (by decide), if_neg (by decide), if_neg (by decide), if_neg (by decide),
      if_pos rfl]
  rw [e]
  refine ⟨_, rfl, fun i j => ?_⟩
  have h := (bhIntermediate_apply (b := b) (m := m) (x := x) rfl).2 i j
  have hbj := hb j
  refine ⟨fun h1 => ?_, fun h1 => ?_, fun h1 h2 => ?_⟩
  · rw [h, if_neg (not_lt.2 (by linarith)), if_pos h1]; ring
  · rw [h, if_pos h1]; ring
  · rw [h, if_neg (not_lt.2 h2), if_neg (not_lt.2 h1)]

/-- C19: the first call of a handler object without memory returns the input unmodified, whether it
is inside the bounds or not, and remembers it. -/
theorem C19_first_call (strategy : String) (hs : strategy ∈ ["shrink", "intermediate"])
    (b : Bounds d K) (r : BHDraw d K) (x : Mat n d K) :
    bhCall strategy none b r x = (some x, .ok x) := by
  simp only [List.mem_cons, List.not_mem_nil, or_false] at hs
  rcases hs with rfl | rfl
  · rw [bhCall, if_neg (by decide), if_neg (by decide), if_pos rfl, bhShrink]
  · rw [bhCall, if_neg (by decide), if_neg (by decide), if_neg (by decide), if_neg (by decide),
      if_pos rfl, bhIntermediate]

/-! ## C20 -/

/-- C20: one common position `pl` inside the bounds for all particles below a lower bound, one
common position `pu` inside the bounds for the other particles above an upper bound, and all other
particles untouched.  The common positions are affine images of the draws and do not depend on the
swarm. -/
theorem C20_shared (mem : Option (Mat n d K)) (b : Bounds d K) (hb : ∀ j, b.1 j ≤ b.2 j)
    (r : BHDraw d K) (hr : r.Legal) :
    ∃ pl pu : Vec d K, (∀ j, b.1 j ≤ pl j ∧ pl j ≤ b.2 j) ∧ (∀ j, b.1 j ≤ pu j ∧ pu j ≤ b.2 j) ∧
      (∀ j, pl j = b.1 j + r.l j * (b.2 j - b.1 j)) ∧
      (∀ j, pu j = b.1 j + r.u j * (b.2 j - b.1 j)) ∧
      ∀ x : Mat n d K, ∃ y, bhCall "random" mem b r x = (mem, .ok y) ∧ ∀ i,
        (Below b x i → y i = pl) ∧ (¬ Below b x i → Above b x i → y i = pu) ∧
        (¬ Below b x i → ¬ Above b x i → y i = x i) := by
  have key : ∀ (w : Vec d K), (∀ j, 0 ≤ w j ∧ w j < 1) → ∀ j,
      b.1 j ≤ b.1 j + w j * (b.2 j - b.1 j) ∧ b.1 j + w j * (b.2 j - b.1 j) ≤ b.2 j := by
    intro w hw j
    have h0 : 0 ≤ b.2 j - b.1 j := sub_nonneg.2 (hb j)
    have h1 := mul_nonneg (hw j).1 h0
    have h2 := mul_le_mul_of_nonneg_right (le_of_lt (hw j).2) h0
    constructor <;> linarith
  refine ⟨fun j => b.1 j + r.l j * (b.2 j - b.1 j), fun j => b.1 j + r.u j * (b.2 j - b.1 j),
    key _ hr.2, key _ hr.1, fun _ => rfl, fun _ => rfl, fun x => ⟨bhRandom b r.u r.l x, ?_, ?_⟩⟩
  · rw [bhCall, if_neg (by decide), if_neg (by decide), if_neg (by decide), if_pos rfl]
  · intro i
    have hl := rowLow_iff b x i
    have hh := rowHigh_iff b x i
    refine ⟨fun h1 => ?_, fun h1 h2 => ?_, fun h1 h2 => ?_⟩
    · funext j
      simp only [bhRandom]
      rw [if_pos (hl.2 h1)]; ring
    · funext j
      simp only [bhRandom]
      rw [if_neg (fun h => h1 (hl.1 h)), if_pos (hh.2 h2)]; ring
    · funext j
      simp only [bhRandom]
      rw [if_neg (fun h => h1 (hl.1 h)), if_neg (fun h => h2 (hh.1 h))]

/-! ## C24 -/

/-- C24: the velocities `invert` returns, before clamping: times `-z` on one violated side, times
`z²` on both, unchanged otherwise (`z` defaults to `1/2`); the clamp is applied afterwards. -/
theorem C24_invert (mem : Option (Mat n d K)) (c : Option (Clamp d K)) (p : Mat n d K)
    (b : Bounds d K) (z : Option K) (v : Mat n d K) :
    ∃ v', vhCall "invert" mem none ⟨some p, some (some b), z⟩ v = (mem, .ok v') ∧
      vhCall "invert" mem c ⟨some p, some (some b), z⟩ v = vhCall "unmodified" mem c
        ⟨some p, some (some b), z⟩ v' ∧
      ∀ i j, (Below b p i → ¬ Above b p i → v' i j = -(z.getD (1 / 2) * v i j)) ∧
        (¬ Below b p i → Above b p i → v' i j = -(z.getD (1 / 2) * v i j)) ∧
        (Below b p i → Above b p i → v' i j = z.getD (1 / 2) ^ 2 * v i j) ∧
        (¬ Below b p i → ¬ Above b p i → v' i j = v i j) := by
  refine ⟨_, by rw [vhCall, if_neg (by decide), if_neg (by decide), if_pos rfl, vhInvert],
    ?_, fun i j => ?_⟩
  · rw [vhCall, if_neg (by decide), if_neg (by decide), if_pos rfl, vhCall, if_pos rfl]
    rfl
  · have hl := rowLow_iff b p i
    have hh := rowHigh_iff b p i
    simp only [clampOpt]
    refine ⟨fun h1 h2 => ?_, fun h1 h2 => ?_, fun h1 h2 => ?_, fun h1 h2 => ?_⟩
    · rw [if_neg (fun h => h2 (hh.1 h)), if_pos (hl.2 h1)]; ring
    · rw [if_neg (fun h => h1 (hl.1 h)), if_pos (hh.2 h2)]; ring
    · rw [if_pos (hl.2 h1), if_pos (hh.2 h2)]; ring
    · rw [if_neg (fun h => h1 (hl.1 h)), if_neg (fun h => h2 (hh.1 h))]

/-- C24: with all particles inside the bounds `invert` is `unmodified`. -/
theorem C24_inside (mem : Option (Mat n d K)) (c : Option (Clamp d K)) (p : Mat n d K)
    (b : Bounds d K) (hp : InBox b p) (z : Option K) (v : Mat n d K) :
    vhCall "invert" mem c ⟨some p, some (some b), z⟩ v =
      vhCall "unmodified" mem c ⟨some p, some (some b), z⟩ v := by
  obtain ⟨v', -, h2, h3⟩ := C24_invert mem c p b z v
  rw [h2]
  have : v' = v := by
    funext i j
    refine (h3 i j).2.2.2 ?_ ?_
    · rintro ⟨j, h⟩; exact absurd h (not_lt.2 (hp i j).1)
    · rintro ⟨j, h⟩; exact absurd h (not_lt.2 (hp i j).2)
  rw [this]

/-! ## Non-vacuity: concrete out-of-bounds swarms -/

namespace Ex

/-- The box `[0,1] × [-1,2]`. -/
def box : Bounds 2 ℚ := (![0, -1], ![1, 2])

/-- A particle far above and below, one on the far left, one inside. -/
def xs : Mat 3 2 ℚ := ![![7 / 2, -13 / 2], ![-1 / 4, 0], ![1 / 2, 1]]

/-- A remembered swarm inside the box. -/
def ms : Mat 3 2 ℚ := ![![1 / 2, 1], ![1 / 4, 0], ![1 / 2, 1]]

def bd : BHDraw 2 ℚ := ⟨![1 / 2, 1 / 4], ![1 / 4, 3 / 4], 3⟩

/-- The result of a call, if any. -/
def bhRes (strategy : String) (mem : Option (Mat 3 2 ℚ)) : Option (Mat 3 2 ℚ) :=
  match bhCall strategy mem box bd xs with
  | (_, .ok y) => some y
  | _ => none

end Ex

example : ProperBounds Ex.box ∧ Ex.bd.Legal ∧ InBox Ex.box Ex.ms ∧ ¬ InBox Ex.box Ex.xs := by
  unfold ProperBounds BHDraw.Legal InBox; decide +kernel

example : Ex.bhRes "nearest" none = some ![![1, -1], ![0, 0], ![1 / 2, 1]] ∧
    Ex.bhRes "reflective" none = some ![![1 / 2, -1 / 2], ![1 / 4, 0], ![1 / 2, 1]] ∧
    Ex.bhRes "periodic" none = some ![![1 / 2, -1 / 2], ![3 / 4, 0], ![1 / 2, 1]] ∧
    Ex.bhRes "random" none = some ![![1 / 4, 5 / 4], ![1 / 4, 5 / 4], ![1 / 2, 1]] ∧
    Ex.bhRes "shrink" (some Ex.ms) =
      some ![![1 / 2 + 3 / 6, 1 - 15 / 12], ![0, 0], ![1 / 2, 1]] ∧
    Ex.bhRes "intermediate" (some Ex.ms) = some ![![3 / 4, 0], ![1 / 8, 0], ![1 / 2, 1]] := by
  decide +kernel

example : Below Ex.box Ex.xs 0 ∧ Above Ex.box Ex.xs 0 ∧ Below Ex.box Ex.xs 1 ∧
    ¬ Above Ex.box Ex.xs 1 ∧ ¬ Below Ex.box Ex.xs 2 ∧ ¬ Above Ex.box Ex.xs 2 := by
  unfold Below Above; decide +kernel

/-- `C17_diverges`, `C18_defined_iff`: a degenerate box and an out-of-bounds particle. -/
example : ∃ (b : Bounds 1 ℚ) (x : Mat 1 1 ℚ), b.2 0 ≤ b.1 0 ∧ (x 0 0 < b.1 0 ∨ b.2 0 < x 0 0) ∧
    b.1 0 = b.2 0 := ⟨(![1], ![1]), ![![2]], by decide +kernel⟩

end PySwarms
