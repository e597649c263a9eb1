import Verif.Model.BoundForm
import Verif.Lemmas.First
import Verif.Examples

/-!
# Which forms of `bounds` work (C90)
-/

set_option linter.unusedSectionVars false

namespace PySwarms

variable {n d : Nat} {K : Type} [Field K] [LinearOrder K] [Transc K] [FloorRing K]

/-! ### Specification -/

/-- Coordinate `(i, j)` of `x` is out of bounds. -/
def Outside (b : Bounds d K) (x : Mat n d K) (i : Fin n) (j : Fin d) : Prop :=
  x i j < b.1 j ∨ b.2 j < x i j

/-- Forms that an index array cannot be applied to. -/
def Form.noArray (f : Form) : Prop := f = .list ∨ f = .list1 ∨ f = .scalar

/-- Forms with a single number. -/
def Form.single (f : Form) : Prop := f = .array1 ∨ f = .list1 ∨ f = .scalar

/-- The combinations of strategy and form that raise whatever the positions are. -/
def Hopeless (st : String) (f : Form) : Prop :=
  ((st = "shrink" ∨ st = "intermediate") ∧ f.noArray) ∨ (st = "random" ∧ f = .scalar)

/-- When does the strategy `st` raise `e` because of the form `f` of the bounds, with proposed
positions `x`? -/
def Upsets (st : String) (f : Form) (b : Bounds d K) (x : Mat n d K) (e : Err) : Prop :=
  (Hopeless st f ∧ e = .typeError) ∨
  (st = "reflective" ∧ f.noArray ∧ e = .typeError ∧ ∃ i j, Outside b x i j) ∨
  ((st = "reflective" ∨ st = "shrink" ∨ st = "intermediate") ∧ f = .array1 ∧ e = .indexError ∧
    ∃ i j, j.val ≠ 0 ∧ Outside b x i j) ∨
  (st = "periodic" ∧ f.single ∧ e = .indexError ∧ ∃ i j, j.val ≠ 0 ∧ Outside b x i j)

/-- The combinations that behave like arrays of shape `(d,)`. -/
def Harmless (st : String) (f : Form) : Prop :=
  f = .array ∨ st = "nearest" ∨ (st = "random" ∧ f ≠ .scalar) ∨ (st = "periodic" ∧ f = .list)

/-! ### The handler -/

theorem mem_colsLow {b : Bounds d K} {x : Mat n d K} {j : Fin d} :
    j ∈ colsLow b x ↔ ∃ i, x i j < b.1 j := by
  simp [colsLow, isLow]

theorem mem_colsHigh {b : Bounds d K} {x : Mat n d K} {j : Fin d} :
    j ∈ colsHigh b x ↔ ∃ i, b.2 j < x i j := by
  simp [colsHigh, isHigh]

theorem anyOut_outside {b : Bounds d K} {x : Mat n d K} : anyOut b x = true ↔ ∃ i j, Outside b x i j := by
  simp only [anyOut, rowLow, rowHigh, isLow, isHigh, List.any_eq_true, List.mem_finRange, true_and,
    Bool.or_eq_true, decide_eq_true_eq, Outside]
  constructor
  · rintro ⟨i, ⟨j, h⟩ | ⟨j, h⟩⟩
    · exact ⟨i, j, .inl h⟩
    · exact ⟨i, j, .inr h⟩
  · rintro ⟨i, j, h | h⟩
    · exact ⟨i, .inl ⟨j, h⟩⟩
    · exact ⟨i, .inr ⟨j, h⟩⟩

/-- A single-number array can be indexed unless a column other than the first is asked for. -/
theorem two_lookups_array1 (b : Bounds d K) (x : Mat n d K) (g : Form → List (Fin d) → Except Err Unit)
    (f : Form) (hg : ∀ cols, g f cols = if cols.any fun j => decide (j.val ≠ 0) then .error .indexError
      else .ok ()) :
    (g f (colsLow b x) = .ok () ∧ g f (colsHigh b x) = .ok () ∧ ∀ i j, Outside b x i j → j.val = 0) ∨
    ((g f (colsLow b x) = .error .indexError ∨
      g f (colsLow b x) = .ok () ∧ g f (colsHigh b x) = .error .indexError) ∧
      ∃ i j, j.val ≠ 0 ∧ Outside b x i j) := by
  rw [hg, hg]
  by_cases h1 : (colsLow b x).any fun j => decide (j.val ≠ 0)
  · right
    refine ⟨.inl (if_pos h1), ?_⟩
    obtain ⟨j, hj, h⟩ := List.any_eq_true.1 h1
    obtain ⟨i, hi⟩ := mem_colsLow.1 hj
    exact ⟨i, j, of_decide_eq_true h, .inl hi⟩
  · rw [if_neg h1]
    by_cases h2 : (colsHigh b x).any fun j => decide (j.val ≠ 0)
    · right
      refine ⟨.inr ⟨rfl, if_pos h2⟩, ?_⟩
      obtain ⟨j, hj, h⟩ := List.any_eq_true.1 h2
      obtain ⟨i, hi⟩ := mem_colsHigh.1 hj
      exact ⟨i, j, of_decide_eq_true h, .inr hi⟩
    · left
      refine ⟨rfl, if_neg h2, fun i j ho => ?_⟩
      by_contra hne
      rcases ho with h | h
      · exact h1 (List.any_eq_true.2 ⟨j, mem_colsLow.2 ⟨i, h⟩, decide_eq_true hne⟩)
      · exact h2 (List.any_eq_true.2 ⟨j, mem_colsHigh.2 ⟨i, h⟩, decide_eq_true hne⟩)

/-- A pass of `reflective` does not touch coordinates inside the bounds. -/
theorem reflectPass_inside {b : Bounds d K} {x : Mat n d K} {i : Fin n} {j : Fin d}
    (h : ¬ Outside b x i j) : reflectPass b x i j = x i j := by
  unfold Outside at h
  simp only [not_or] at h
  simp [reflectPass, isLow, isHigh, h.1, h.2]

theorem reflectiveF_array (b : Bounds d K) (m : Nat) (x : Mat n d K) :
    bhReflectiveF .array b m x = bhReflective b m x := by
  induction m generalizing x with
  | zero => rfl
  | succ m ih =>
    have hi : ∀ cols : List (Fin d), indexIfAny .array cols = .ok () := by
      intro cols; unfold indexIfAny indexByArray; split <;> rfl
    unfold bhReflectiveF bhReflective
    rw [hi, hi]
    dsimp only
    rw [ih]

theorem reflectiveF_array1_first (b : Bounds d K) (m : Nat) (x : Mat n d K)
    (h : ∀ i j, Outside b x i j → j.val = 0) :
    bhReflectiveF .array1 b m x = bhReflective b m x := by
  induction m generalizing x with
  | zero => rfl
  | succ m ih =>
    have hl : indexIfAny .array1 (colsLow b x) = .ok () := by
      unfold indexIfAny indexByArray
      split
      · rfl
      · rw [if_neg]
        intro ha
        obtain ⟨j, hj, hne⟩ := List.any_eq_true.1 ha
        obtain ⟨i, hi⟩ := mem_colsLow.1 hj
        exact of_decide_eq_true hne (h i j (.inl hi))
    have hh : indexIfAny .array1 (colsHigh b x) = .ok () := by
      unfold indexIfAny indexByArray
      split
      · rfl
      · rw [if_neg]
        intro ha
        obtain ⟨j, hj, hne⟩ := List.any_eq_true.1 ha
        obtain ⟨i, hi⟩ := mem_colsHigh.1 hj
        exact of_decide_eq_true hne (h i j (.inr hi))
    unfold bhReflectiveF bhReflective
    rw [hl, hh]
    dsimp only
    rw [ih]
    intro i j ho
    by_contra hne
    have hin : ¬ Outside b x i j := fun h' => hne (h i j h')
    apply hin
    unfold Outside at ho ⊢
    rwa [reflectPass_inside hin] at ho

/-- The handler with any form either does what it does with arrays, or raises as specified. -/
theorem bhCallF_cases (f : Form) (st : String) (m : Mat n d K) (b : Bounds d K) (r : BHDraw d K)
    (x : Mat n d K) :
    (bhCallF f st (some m) b r x = bhCall st (some m) b r x ∧
      ((∃ e, Upsets st f b x e) → ∃ e', (bhCallF f st (some m) b r x).2 = .error e')) ∨
    ∃ e, bhCallF f st (some m) b r x = (some m, .error e) ∧ Upsets st f b x e := by
  have lift : ∀ e, bhCallF f st (some m) b r x = (some m, .error e) → Upsets st f b x e →
      (bhCallF f st (some m) b r x = bhCall st (some m) b r x ∧
        ((∃ e, Upsets st f b x e) → ∃ e', (bhCallF f st (some m) b r x).2 = .error e')) ∨
      ∃ e, bhCallF f st (some m) b r x = (some m, .error e) ∧ Upsets st f b x e :=
    fun e h1 h2 => .inr ⟨e, h1, h2⟩
  by_cases hn : st = "nearest"
  · subst hn
    left
    refine ⟨by simp [bhCallF, bhCall], ?_⟩
    rintro ⟨e, h⟩
    simp [Upsets, Hopeless] at h
  by_cases hr : st = "reflective"
  · subst hr
    have h1 : bhCallF f "reflective" (some m) b r x = (some m, bhReflectiveF f b r.passes x) := by
      simp [bhCallF]
    have h2 : bhCall "reflective" (some m) b r x = (some m, bhReflective b r.passes x) := by
      simp [bhCall]
    rw [h1, h2]
    rw [h1, h2] at lift
    by_cases ho : ∃ i j, Outside b x i j
    · have hany := anyOut_outside.2 ho
      cases hp : r.passes with
      | zero =>
        left
        simp [bhReflectiveF, bhReflective, hany]
      | succ k =>
        rw [hp] at lift
        have hno : f.noArray → bhReflectiveF f b (k + 1) x = .error .typeError := by
          intro hf
          have hix : ∀ cols : List (Fin d), indexIfAny f cols = if cols.isEmpty then .ok () else
              .error .typeError := by
            intro cols
            rcases hf with rfl | rfl | rfl <;> rfl
          unfold bhReflectiveF
          rw [if_pos hany, hix, hix]
          by_cases hl : (colsLow b x).isEmpty
          · rw [if_pos hl]
            have hh : ¬ (colsHigh b x).isEmpty := by
              intro hh
              obtain ⟨i, j, h | h⟩ := ho
              · have := mem_colsLow.2 ⟨i, h⟩
                rw [List.isEmpty_iff] at hl
                rw [hl] at this; cases this
              · have := mem_colsHigh.2 ⟨i, h⟩
                rw [List.isEmpty_iff] at hh
                rw [hh] at this; cases this
            rw [if_neg hh]
          · rw [if_neg hl]
        cases f with
        | array => exact .inl ⟨by rw [reflectiveF_array], by rintro ⟨e, h⟩; simp [Upsets, Hopeless, Form.noArray, Form.single] at h⟩
        | list => exact lift _ (by rw [hno (.inl rfl)]) (.inr (.inl ⟨rfl, .inl rfl, rfl, ho⟩))
        | list1 => exact lift _ (by rw [hno (.inr (.inl rfl))]) (.inr (.inl ⟨rfl, .inr (.inl rfl), rfl, ho⟩))
        | scalar => exact lift _ (by rw [hno (.inr (.inr rfl))]) (.inr (.inl ⟨rfl, .inr (.inr rfl), rfl, ho⟩))
        | array1 =>
          by_cases hc : ∃ i j, j.val ≠ 0 ∧ Outside b x i j
          · refine lift .indexError ?_ (.inr (.inr (.inl ⟨.inl rfl, rfl, rfl, hc⟩)))
            have hlk := two_lookups_array1 b x indexByArray .array1 (fun _ => rfl)
            have hne : ∀ cols : List (Fin d), indexByArray .array1 cols = .error .indexError →
                indexIfAny .array1 cols = .error .indexError := by
              intro cols h
              unfold indexIfAny
              rw [if_neg, h]
              intro he
              rw [List.isEmpty_iff] at he
              rw [he] at h
              simp [indexByArray] at h
            have hok : ∀ cols : List (Fin d), indexByArray .array1 cols = .ok () →
                indexIfAny .array1 cols = .ok () := by
              intro cols h
              unfold indexIfAny
              split
              · rfl
              · exact h
            unfold bhReflectiveF
            rw [if_pos hany]
            rcases hlk with ⟨-, -, h⟩ | ⟨h | ⟨h, h'⟩, -⟩
            · obtain ⟨i, j, h0, h'⟩ := hc
              exact absurd (h i j h') h0
            · rw [hne _ h]
            · rw [hok _ h, hne _ h']
          · have hc' : ∀ i j, Outside b x i j → j.val = 0 := by
              intro i j h
              by_contra h0
              exact hc ⟨i, j, h0, h⟩
            refine .inl ⟨by rw [reflectiveF_array1_first b _ x hc'], ?_⟩
            · rintro ⟨e, h⟩
              rcases h with ⟨h, -⟩ | ⟨-, h, -⟩ | ⟨-, -, -, h⟩ | ⟨h, -⟩
              · simp [Hopeless] at h
              · rcases h with h | h | h <;> cases h
              · exact absurd h hc
              · simp at h
    · left
      have hany : anyOut b x = false := by
        cases h : anyOut b x with
        | false => rfl
        | true => exact absurd (anyOut_outside.1 h) ho
      refine ⟨?_, ?_⟩
      · cases r.passes with
        | zero => simp [bhReflectiveF, bhReflective]
        | succ k => simp [bhReflectiveF, bhReflective, hany]
      · rintro ⟨e, h⟩
        rcases h with ⟨h, -⟩ | ⟨-, -, -, h⟩ | ⟨-, -, -, i, j, -, h⟩ | ⟨h, -⟩
        · simp [Hopeless] at h
        · exact absurd h ho
        · exact absurd ⟨i, j, h⟩ ho
        · simp at h
  -- shrink and intermediate index the bounds in the same way
  have two : ∀ (body : Option (Mat n d K) × Except Err (Mat n d K))
      (res : Option (Mat n d K) × Except Err (Mat n d K)), (st = "shrink" ∨ st = "intermediate") →
      res = (match indexByArray f (colsLow b x) with
        | .error e => (some m, .error e)
        | .ok () => match indexByArray f (colsHigh b x) with
          | .error e => (some m, .error e)
          | .ok () => body) →
      (res = body ∧ ((∃ e, Upsets st f b x e) → ∃ e', res.2 = .error e')) ∨
      ∃ e, res = (some m, .error e) ∧ Upsets st f b x e := by
    intro body res hst hres
    have hst3 : st = "reflective" ∨ st = "shrink" ∨ st = "intermediate" := .inr hst
    have hnp : st ≠ "periodic" := by rcases hst with rfl | rfl <;> decide
    have hnr : st ≠ "random" := by rcases hst with rfl | rfl <;> decide
    cases f with
    | array =>
      left
      refine ⟨hres, ?_⟩
      rintro ⟨e, h⟩
      rcases h with ⟨⟨-, h⟩ | ⟨-, h⟩, -⟩ | ⟨h, -⟩ | ⟨-, h, -⟩ | ⟨h, -⟩
      · rcases h with h | h | h <;> cases h
      · cases h
      · exact absurd h hr
      · cases h
      · exact absurd h hnp
    | list => exact .inr ⟨.typeError, hres, .inl ⟨.inl ⟨hst, .inl rfl⟩, rfl⟩⟩
    | list1 => exact .inr ⟨.typeError, hres, .inl ⟨.inl ⟨hst, .inr (.inl rfl)⟩, rfl⟩⟩
    | scalar => exact .inr ⟨.typeError, hres, .inl ⟨.inl ⟨hst, .inr (.inr rfl)⟩, rfl⟩⟩
    | array1 =>
      rcases two_lookups_array1 b x indexByArray .array1 (fun _ => rfl) with ⟨h1, h2, h3⟩ | ⟨h, hc⟩
      · left
        rw [h1, h2] at hres
        refine ⟨hres, ?_⟩
        rintro ⟨e, h⟩
        rcases h with ⟨⟨-, h⟩ | ⟨-, h⟩, -⟩ | ⟨h, -⟩ | ⟨-, -, -, i, j, h0, h⟩ | ⟨h, -⟩
        · rcases h with h | h | h <;> cases h
        · cases h
        · exact absurd h hr
        · exact absurd (h3 i j h) h0
        · exact absurd h hnp
      · right
        refine ⟨.indexError, ?_, .inr (.inr (.inl ⟨hst3, rfl, rfl, hc⟩))⟩
        rcases h with h | ⟨h, h'⟩
        · rw [h] at hres; exact hres
        · rw [h, h'] at hres; exact hres
  by_cases hs : st = "shrink"
  · have h1 : bhCallF f st (some m) b r x = bhShrinkF f b (some m) x := by
      subst hs; simp [bhCallF]
    have h2 : bhCall st (some m) b r x = bhShrink b (some m) x := by
      subst hs; simp [bhCall]
    rw [h1, h2]
    exact two (bhShrink b (some m) x) (bhShrinkF f b (some m) x) (.inl hs) rfl
  by_cases hra : st = "random"
  · subst hra
    have h1 : bhCallF f "random" (some m) b r x = (some m, bhRandomF f b r.u r.l x) := by
      simp [bhCallF]
    have h2 : bhCall "random" (some m) b r x = (some m, .ok (bhRandom b r.u r.l x)) := by
      simp [bhCall]
    rw [h1, h2]
    by_cases hf : f = .scalar
    · subst hf
      exact .inr ⟨.typeError, rfl, .inl ⟨.inr ⟨rfl, rfl⟩, rfl⟩⟩
    · left
      refine ⟨by cases f <;> first | rfl | exact absurd rfl hf, ?_⟩
      rintro ⟨e, h⟩
      rcases h with ⟨⟨h, -⟩ | ⟨-, h⟩, -⟩ | ⟨h, -⟩ | ⟨h, -⟩ | ⟨h, -⟩
      · simp at h
      · exact absurd h hf
      · simp at h
      · simp at h
      · simp at h
  by_cases hi : st = "intermediate"
  · have h1 : bhCallF f st (some m) b r x = bhIntermediateF f b (some m) x := by
      subst hi; simp [bhCallF]
    have h2 : bhCall st (some m) b r x = bhIntermediate b (some m) x := by
      subst hi; simp [bhCall]
    rw [h1, h2]
    exact two (bhIntermediate b (some m) x) (bhIntermediateF f b (some m) x) (.inr hi) rfl
  by_cases hp : st = "periodic"
  · subst hp
    have h1 : bhCallF f "periodic" (some m) b r x = (some m, bhPeriodicF f b x) := by
      simp [bhCallF]
    have h2 : bhCall "periodic" (some m) b r x = (some m, bhPeriodic b x) := by
      simp [bhCall]
    rw [h1, h2]
    have hnot : (∀ i j, Outside b x i j → j.val = 0) ∨ ¬ f.single →
        (∃ e, Upsets "periodic" f b x e) → ∃ e', (some m, bhPeriodicF f b x).2 = .error e' := by
      rintro hcase ⟨e, h⟩
      rcases h with ⟨⟨h, -⟩ | ⟨h, -⟩, -⟩ | ⟨h, -⟩ | ⟨h, -⟩ | ⟨-, hs, -, i, j, h0, h⟩
      · simp at h
      · simp at h
      · simp at h
      · simp at h
      · rcases hcase with hc | hc
        · exact absurd (hc i j h) h0
        · exact absurd hs hc
    have hone : f.single → (bhPeriodicF f b x = bhPeriodic b x ∧ ∀ i j, Outside b x i j → j.val = 0) ∨
        (bhPeriodicF f b x = .error .indexError ∧ ∃ i j, j.val ≠ 0 ∧ Outside b x i j) := by
      intro hs
      have hg : ∀ cols : List (Fin d), indexTiled f cols =
          if cols.any fun j => decide (j.val ≠ 0) then .error .indexError else .ok () := by
        intro cols
        rcases hs with rfl | rfl | rfl <;> rfl
      unfold bhPeriodicF
      rcases two_lookups_array1 b x indexTiled f hg with ⟨h1, h2, h3⟩ | ⟨h | ⟨h, h'⟩, hc⟩
      · rw [h1, h2]; exact .inl ⟨rfl, h3⟩
      · rw [h]; exact .inr ⟨rfl, hc⟩
      · rw [h, h']; exact .inr ⟨rfl, hc⟩
    by_cases hs : f.single
    · rcases hone hs with ⟨h, h3⟩ | ⟨h, hc⟩
      · exact .inl ⟨by rw [h], hnot (.inl h3)⟩
      · exact .inr ⟨.indexError, by rw [h], .inr (.inr (.inr ⟨rfl, hs, rfl, hc⟩))⟩
    · refine .inl ⟨?_, hnot (.inr hs)⟩
      cases f with
      | array => rfl
      | list => rfl
      | array1 => exact absurd (.inl rfl) hs
      | list1 => exact absurd (.inr (.inl rfl)) hs
      | scalar => exact absurd (.inr (.inr rfl)) hs
  · left
    refine ⟨by simp [bhCallF, bhCall, hn, hr, hs, hra, hi, hp], ?_⟩
    intro _
    exact ⟨.keyError, by simp [bhCallF, hn, hr, hs, hra, hi, hp]⟩

/-! ### The loop -/

/-- The position that the next update would propose. -/
def proposal (s : Swarm n d K) : Mat n d K := fun i j => s.position i j + s.velocity i j

theorem bhCall_mem_isSome (st : String) (m : Mat n d K) (b : Bounds d K) (r : BHDraw d K)
    (x : Mat n d K) : (bhCall st (some m) b r x).1.isSome := by
  unfold bhCall bhShrink bhIntermediate
  split
  · rfl
  split
  · rfl
  split
  · dsimp only
    split
    · rfl
    split <;> rfl
  split
  · rfl
  split
  · rfl
  split <;> rfl

/-- The handler has a memory, as it does from the start of every `optimize` call on. -/
def HasMem (cfg : Config n d K) (s : Opt n d K) : Prop := cfg.kind = .binary ∨ s.bhMem.isSome

theorem callPositionF_cases (f : Form) (cfg : Config n d K) (r : Draw n d K)
    (mem : Option (Mat n d K)) (s : Swarm n d K) (hm : cfg.kind = .binary ∨ mem.isSome) :
    (callPositionF f cfg r mem s = callPosition cfg r mem s ∧
      (cfg.kind = .binary ∨ (callPosition cfg r mem s).1.isSome) ∧
      ∀ b, cfg.kind ≠ .binary → cfg.bounds = some b →
        (∃ e, Upsets cfg.bhStrategy f b (proposal s) e) →
        ∃ e', (callPositionF f cfg r mem s).2 = .error e') ∨
    ∃ b e, cfg.kind ≠ .binary ∧ cfg.bounds = some b ∧
      callPositionF f cfg r mem s = (mem, .error e) ∧ Upsets cfg.bhStrategy f b (proposal s) e := by
  by_cases hk : cfg.kind = .binary
  · left
    refine ⟨?_, .inl hk, fun b h => absurd hk h⟩
    unfold callPositionF callPosition
    rw [hk]
  · have hm' : mem.isSome := hm.resolve_left hk
    obtain ⟨m, rfl⟩ := Option.isSome_iff_exists.1 hm'
    have h1 : callPosition cfg r (some m) s = match cfg.bounds with
        | none => (some m, .ok (proposal s))
        | some b => bhCall cfg.bhStrategy (some m) b r.bh (proposal s) := by
      unfold callPosition computePosition
      cases hkk : cfg.kind <;> first | exact absurd hkk hk | rfl
    have h2 : callPositionF f cfg r (some m) s = match cfg.bounds with
        | none => (some m, .ok (proposal s))
        | some b => bhCallF f cfg.bhStrategy (some m) b r.bh (proposal s) := by
      unfold callPositionF
      cases hkk : cfg.kind <;> first | exact absurd hkk hk | rfl
    rw [h1, h2]
    cases hb : cfg.bounds with
    | none => exact .inl ⟨rfl, .inr rfl, fun b _ h => by cases h⟩
    | some b =>
      rcases bhCallF_cases f cfg.bhStrategy m b r.bh (proposal s) with ⟨h, hu⟩ | ⟨e, h, hu⟩
      · exact .inl ⟨h, .inr (bhCall_mem_isSome _ _ _ _ _), fun b' _ hb' => by
          cases hb'; exact hu⟩
      · exact .inr ⟨b, e, hk, rfl, h, hu⟩

/-- The outcome of a step with another form: a refusal that leaves positions and records alone. -/
structure RefusedStep (f : Form) (cfg : Config n d K) (s s' : Opt n d K) (e : Err) : Prop where
  position : s'.swarm.position = s.swarm.position
  evals : s'.evals = s.evals
  upset : ∃ b, cfg.kind ≠ .binary ∧ cfg.bounds = some b ∧
    Upsets cfg.bhStrategy f b (proposal s'.swarm) e

theorem moveSwarmF_cases (f : Form) (cfg : Config n d K) (r : Draw n d K) (iters i : Nat)
    (s : Opt n d K) (hm : HasMem cfg s) :
    (moveSwarmF f cfg r iters i s = moveSwarm cfg r iters i s ∧
      HasMem cfg (moveSwarm cfg r iters i s).1 ∧
      ((moveSwarmF f cfg r iters i s).2 = .ok () → ∀ b, cfg.kind ≠ .binary → cfg.bounds = some b →
        ¬ ∃ e, Upsets cfg.bhStrategy f b
          (fun p j => s.swarm.position p j + (moveSwarm cfg r iters i s).1.swarm.velocity p j) e)) ∨
    ∃ s' e, moveSwarmF f cfg r iters i s = (s', .error e) ∧ RefusedStep f cfg s s' e := by
  unfold moveSwarmF moveSwarm
  cases ho : callOptions cfg iters i r s.swarm with
  | error e => exact .inl ⟨rfl, hm, fun h => by cases h⟩
  | ok o =>
    dsimp only
    cases hv : computeVelocity { s.swarm with options := o } cfg.clamp cfg.vhStrategy s.vhMem
        (velBounds cfg) r.r1 r.r2 with
    | mk vm x =>
      cases x with
      | error e => exact .inl ⟨rfl, hm, fun h => by cases h⟩
      | ok v =>
        dsimp only
        rcases callPositionF_cases f cfg r s.bhMem { s.swarm with options := o, velocity := v } hm with
          ⟨h, hmem, hu⟩ | ⟨b, e, hk, hb, h, hu⟩
        · rw [h] at hu ⊢
          left
          refine ⟨rfl, ?_, ?_⟩
          · cases hc : callPosition cfg r s.bhMem { s.swarm with options := o, velocity := v } with
            | mk bm y =>
              rw [hc] at hmem
              cases y with
              | error e => exact hmem
              | ok p => exact hmem
          · intro hok b hk hb hup
            obtain ⟨e', he⟩ := hu b hk hb (by
              cases hc : callPosition cfg r s.bhMem { s.swarm with options := o, velocity := v } with
              | mk bm y =>
                rw [hc] at hup
                cases y with
                | error e => exact hup
                | ok p => exact hup)
            cases hc : callPosition cfg r s.bhMem { s.swarm with options := o, velocity := v } with
            | mk bm y =>
              rw [hc] at he hok
              dsimp only at he
              subst he
              cases hok
        · rw [h]
          exact .inr ⟨_, e, rfl, rfl, rfl, b, hk, hb, hu⟩

/-- An iteration either does what it does with arrays, or is refused. -/
theorem iterateF_cases (f : Form) (cfg : Config n d K) (ev : Mat n d K → Except Err (Costs n K))
    (r : Draw n d K) (iters i : Nat) (q : List Bool) (s : Opt n d K) (hm : HasMem cfg s) :
    (iterateF f cfg ev r iters i q s = iterate cfg ev r iters i q s ∧
      HasMem cfg (iterate cfg ev r iters i q s).1) ∨
    ∃ c t g s' e, ev s.swarm.position = .ok c ∧
      iterateF f cfg ev r iters i q s = (s', .error e) ∧
      RefusedStep f cfg (recordBest t g (recordEval c s)) s' e := by
  unfold iterateF iterate
  cases hev : ev s.swarm.position with
  | error e => exact .inl ⟨rfl, hm⟩
  | ok c =>
    dsimp only
    cases hg : callGbest cfg r.oracle (recordEval c s).top (recordEval c s).swarm with
    | mk t x =>
      cases x with
      | error e => exact .inl ⟨rfl, hm⟩
      | ok g =>
        dsimp only
        split
        · exact .inl ⟨rfl, hm⟩
        · rcases moveSwarmF_cases f cfg r iters i (recordBest t g (recordEval c s)) hm with
            ⟨h1, h2, -⟩ | ⟨s', e, h1, h2⟩
          · left
            rw [h1]
            refine ⟨rfl, ?_⟩
            generalize moveSwarm cfg r iters i (recordBest t g (recordEval c s)) = R at h2
            obtain ⟨s3, x⟩ := R
            cases x with
            | error e => exact h2
            | ok u => exact h2
          · right
            rw [h1]
            exact ⟨c, t, g, s', e, rfl, rfl, h2⟩

theorem loopF_cases (f : Form) (cfg : Config n d K) (ev : Nat → Mat n d K → Except Err (Costs n K))
    (env : Nat → Draw n d K) (iters m i : Nat) (q : List Bool) (s : Opt n d K) (hm : HasMem cfg s) :
    loopF f cfg ev env iters m i q s = loop cfg ev env iters m i q s ∨
    ∃ s' e b, loopF f cfg ev env iters m i q s = (s', .error e) ∧ cfg.kind ≠ .binary ∧
      cfg.bounds = some b ∧ Upsets cfg.bhStrategy f b (proposal s'.swarm) e := by
  induction m generalizing i q s with
  | zero => exact .inl rfl
  | succ m ih =>
    rw [loopF, loop]
    rcases iterateF_cases f cfg (ev i) (env i) iters i q s hm with ⟨h1, h2⟩ | ⟨c, t, g, s', e, -, h1, h2⟩
    · rw [h1]
      generalize iterate cfg (ev i) (env i) iters i q s = R at h2
      obtain ⟨s3, x⟩ := R
      cases x with
      | error e => exact .inl rfl
      | ok fl =>
        cases fl with
        | stop => exact .inl rfl
        | «continue» q' => exact ih (i + 1) q' s3 h2
    · rw [h1]
      obtain ⟨b, hk, hb, hu⟩ := h2.upset
      exact .inr ⟨s', e, b, rfl, hk, hb, hu⟩

theorem prepare_hasMem (cfg : Config n d K) (s : Opt n d K) (k : Nat) :
    HasMem cfg { prepare cfg s with openPools := k } := by
  unfold HasMem prepare
  cases cfg.kind <;> simp

/-- C90: a call of `optimize` with bounds of any form does exactly what it does with arrays of shape
`(d,)`, except that it may raise when a step is proposed that upsets the strategy. -/
theorem C90_call (f : Form) (cfg : Config n d K) (ev : Nat → Mat n d K → Except Err (Costs n K))
    (iters : Nat) (nproc : Option Nat) (env : Nat → Draw n d K) (s : Opt n d K) :
    optimizeF f cfg ev iters nproc env s = optimize cfg ev iters nproc env s ∨
    ∃ s' e b, optimizeF f cfg ev iters nproc env s = (s', .error e) ∧ cfg.bounds = some b ∧
      Upsets cfg.bhStrategy f b
        (fun i j => s'.swarm.position i j + s'.swarm.velocity i j) e := by
  unfold optimizeF optimize
  split
  · exact .inl rfl
  · dsimp only
    rcases loopF_cases f cfg ev env iters iters 0 [] _ (prepare_hasMem cfg s
      (s.openPools + (if nproc.isSome then 1 else 0))) with h | ⟨s', e, b, h, -, hb, hu⟩
    · rw [h]; exact .inl rfl
    · rw [h]; exact .inr ⟨s', e, b, rfl, hb, hu⟩

/-! ### Calls that return -/

/-- No recorded step upset the strategy: the step from the `t`-th recorded positions with the
velocities recorded next. -/
def RecordsCalm (f : Form) (cfg : Config n d K) (s : Opt n d K) : Prop :=
  ∀ t P V, s.posHistory[t]? = some P → s.velocityHistory[t + 1]? = some V →
    ∀ b, cfg.kind ≠ .binary → cfg.bounds = some b →
      ¬ ∃ e, Upsets cfg.bhStrategy f b (fun i j => P i j + V i j) e

structure CalmSoFar (f : Form) (cfg : Config n d K) (s : Opt n d K) : Prop where
  len : s.posHistory.length = s.velocityHistory.length
  calm : RecordsCalm f cfg s
  last : ∀ P, s.posHistory.getLast? = some P → ∀ b, cfg.kind ≠ .binary → cfg.bounds = some b →
    ¬ ∃ e, Upsets cfg.bhStrategy f b (fun i j => P i j + s.swarm.velocity i j) e
  mem : HasMem cfg s

theorem recordBest_calm {f : Form} {cfg : Config n d K} {s : Opt n d K} (h : CalmSoFar f cfg s)
    (t : TopState n) (g : GBest n d K) (c : Costs n K) :
    RecordsCalm f cfg (recordBest t g (recordEval c s)) := by
  intro u P V hP hV b hk hb
  have hp : (recordBest t g (recordEval c s)).posHistory = s.posHistory ++ [s.swarm.position] := rfl
  have hv : (recordBest t g (recordEval c s)).velocityHistory =
      s.velocityHistory ++ [s.swarm.velocity] := rfl
  rw [hp] at hP
  rw [hv] at hV
  by_cases hlt : u + 1 < s.velocityHistory.length
  · rw [List.getElem?_append_left hlt] at hV
    rw [List.getElem?_append_left (by rw [h.len]; omega)] at hP
    exact h.calm u P V hP hV b hk hb
  · have hu : u + 1 = s.velocityHistory.length := by
      have := (List.getElem?_eq_some_iff.1 hV).1
      simp at this
      omega
    rw [hu, List.getElem?_concat_length] at hV
    cases hV
    rw [List.getElem?_append_left (by rw [h.len]; omega)] at hP
    refine h.last P ?_ b hk hb
    rw [List.getLast?_eq_getElem?, h.len, ← hu]
    exact hP

theorem iterateF_calm (f : Form) (cfg : Config n d K) (ev : Mat n d K → Except Err (Costs n K))
    (r : Draw n d K) (iters i : Nat) (q : List Bool) (s s' : Opt n d K) (fl : Flow)
    (h : CalmSoFar f cfg s) (hit : iterateF f cfg ev r iters i q s = (s', .ok fl)) :
    RecordsCalm f cfg s' ∧ ∀ q', fl = .continue q' → CalmSoFar f cfg s' := by
  unfold iterateF at hit
  cases hev : ev s.swarm.position with
  | error e => rw [hev] at hit; cases hit
  | ok c =>
    rw [hev] at hit
    dsimp only at hit
    cases hg : callGbest cfg r.oracle (recordEval c s).top (recordEval c s).swarm with
    | mk t x =>
      rw [hg] at hit
      cases x with
      | error e => cases hit
      | ok g =>
        dsimp only at hit
        have hrec := recordBest_calm h t g c
        split at hit
        · cases hit
          exact ⟨hrec, fun q' h => by cases h⟩
        · have hm : HasMem cfg (recordBest t g (recordEval c s)) := h.mem
          rcases moveSwarmF_cases f cfg r iters i (recordBest t g (recordEval c s)) hm with
            ⟨h1, h2, h3⟩ | ⟨s', e, h1, h2⟩
          · have hfr := moveSwarm_frame cfg r iters i (recordBest t g (recordEval c s))
            rw [h1] at hit h3
            generalize moveSwarm cfg r iters i (recordBest t g (recordEval c s)) = R at hit h2 h3 hfr
            obtain ⟨s3, x⟩ := R
            cases x with
            | error e => cases hit
            | ok u =>
              cases hit
              have hp : s'.posHistory = (recordBest t g (recordEval c s)).posHistory := by
                simp only at hfr; tauto
              have hv : s'.velocityHistory = (recordBest t g (recordEval c s)).velocityHistory := by
                simp only at hfr; tauto
              have hcalm : RecordsCalm f cfg s' := by
                unfold RecordsCalm
                rw [hp, hv]
                exact hrec
              refine ⟨hcalm, fun q' _ => ⟨?_, hcalm, ?_, h2⟩⟩
              · rw [hp, hv]
                show (s.posHistory ++ [_]).length = (s.velocityHistory ++ [_]).length
                simp [h.len]
              · intro P hP b hk hb
                rw [hp] at hP
                have : (recordBest t g (recordEval c s)).posHistory =
                  s.posHistory ++ [s.swarm.position] := rfl
                rw [this] at hP
                simp only [List.getLast?_append, List.getLast?_singleton, Option.some_or,
                  Option.some.injEq] at hP
                subst hP
                exact h3 rfl b hk hb
          · rw [h1] at hit; cases hit

theorem loopF_calm (f : Form) (cfg : Config n d K) (ev : Nat → Mat n d K → Except Err (Costs n K))
    (env : Nat → Draw n d K) (iters m i : Nat) (q : List Bool) (s s' : Opt n d K)
    (h : CalmSoFar f cfg s) (hl : loopF f cfg ev env iters m i q s = (s', .ok ())) :
    RecordsCalm f cfg s' := by
  induction m generalizing i q s with
  | zero => cases hl; exact h.calm
  | succ m ih =>
    rw [loopF] at hl
    cases hit : iterateF f cfg (ev i) (env i) iters i q s with
    | mk s3 x =>
      rw [hit] at hl
      cases x with
      | error e => cases hl
      | ok fl =>
        have hc := iterateF_calm f cfg _ _ iters i q s s3 fl h hit
        cases fl with
        | stop => cases hl; exact hc.1
        | «continue» q' => exact ih (i + 1) q' s3 (hc.2 q' rfl) hl

/-- C90: a call that returns never proposed an upsetting step.  So with bounds given as lists and the
strategy `reflective` a call only returns if nothing ever had to be reflected. -/
theorem C90_returns (f : Form) (cfg : Config n d K) (hk : cfg.kind ≠ .binary)
    (ev : Nat → Mat n d K → Except Err (Costs n K)) (iters : Nat) (nproc : Option Nat)
    (env : Nat → Draw n d K) (s s' : Opt n d K) (hs : s.posHistory = [] ∧ s.velocityHistory = [])
    (x : XR K × Vec d K) (h : optimizeF f cfg ev iters nproc env s = (s', .ok x)) (t : Nat)
    (P V : Mat n d K) (hP : s'.posHistory[t]? = some P) (hV : s'.velocityHistory[t + 1]? = some V)
    (b : Bounds d K) (hb : cfg.bounds = some b) (e : Err) :
    ¬ Upsets cfg.bhStrategy f b (fun i j => P i j + V i j) e := by
  have hcalm : RecordsCalm f cfg s' := by
    unfold optimizeF at h
    split at h
    · cases h
    · dsimp only at h
      cases hl : loopF f cfg ev env iters iters 0 [] { prepare cfg s with
          openPools := s.openPools + (if nproc.isSome then 1 else 0) } with
      | mk s1 y =>
        rw [hl] at h
        cases y with
        | error e => cases h
        | ok u =>
          have hr := loopF_calm f cfg ev env iters iters 0 [] _ s1 ⟨?_, ?_, ?_,
            prepare_hasMem cfg s _⟩ hl
          · dsimp only at h
            split at h
            · cases h
            · cases h; exact hr
          · show s.posHistory.length = s.velocityHistory.length
            rw [hs.1, hs.2]
          · intro t P V hP
            have : s.posHistory[t]? = some P := hP
            rw [hs.1] at this; cases this
          · intro P hP
            have : s.posHistory.getLast? = some P := hP
            rw [hs.1] at this; cases this
  exact fun hu => hcalm t P V hP hV b hk hb ⟨e, hu⟩

/-! ### Combinations that never work -/

theorem hopeless_upsets {st : String} {f : Form} (h : Hopeless st f) (b : Bounds d K)
    (x : Mat n d K) (e : Err) : Upsets st f b x e ↔ e = .typeError := by
  constructor
  · rintro (⟨-, rfl⟩ | ⟨-, -, rfl, -⟩ | ⟨-, rfl, -, -⟩ | ⟨rfl, -⟩)
    · rfl
    · rfl
    · rcases h with ⟨-, h | h | h⟩ | ⟨-, h⟩ <;> cases h
    · rcases h with ⟨h | h, -⟩ | ⟨h, -⟩ <;> exact absurd h (by decide)
  · rintro rfl
    exact .inl ⟨h, rfl⟩

theorem moveSwarm_error_position (cfg : Config n d K) (r : Draw n d K) (iters i : Nat) (s s' : Opt n d K)
    (e : Err) (h : moveSwarm cfg r iters i s = (s', .error e)) :
    s'.swarm.position = s.swarm.position := by
  have hc := moveSwarm_cases cfg r iters i s
  rw [h] at hc
  cases hc <;> rfl

theorem iterateF_hopeless {f : Form} {cfg : Config n d K} (hh : Hopeless cfg.bhStrategy f)
    (hk : cfg.kind ≠ .binary) {b : Bounds d K} (hb : cfg.bounds = some b)
    (ev : Mat n d K → Except Err (Costs n K)) (r : Draw n d K) (iters i : Nat)
    (hi : i < cfg.window) (q : List Bool) (s : Opt n d K) (hm : HasMem cfg s) :
    ∃ s' e, iterateF f cfg ev r iters i q s = (s', .error e) ∧
      s'.swarm.position = s.swarm.position ∧
      (s'.evals = s.evals ∨ ∃ c, s'.evals = s.evals ++ [(s.swarm.position, c)]) ∧
      (∀ o fl, iterate cfg ev r iters i q s = (o, .ok fl) → e = .typeError ∧
        ∃ c, ev s.swarm.position = .ok c ∧ s'.evals = s.evals ++ [(s.swarm.position, c)]) := by
  unfold iterateF iterate
  cases hev : ev s.swarm.position with
  | error e => exact ⟨_, _, rfl, rfl, .inl rfl, fun o fl h => by cases h⟩
  | ok c =>
    dsimp only
    rcases callGbest cfg r.oracle (recordEval c s).top (recordEval c s).swarm with ⟨t, e | g⟩
    · exact ⟨_, _, rfl, rfl, .inr ⟨c, rfl⟩, fun o fl h => by cases h⟩
    · dsimp only
      simp only [hi, not_true, decide_false, Bool.false_and, Bool.false_eq_true, if_false]
      have hm2 : HasMem cfg (recordBest t g (recordEval c s)) := hm
      have hfr := moveSwarm_frame cfg r iters i (recordBest t g (recordEval c s))
      rcases moveSwarmF_cases f cfg r iters i (recordBest t g (recordEval c s)) hm2 with
        ⟨h1, h2, h3⟩ | ⟨s', e, h1, h2⟩
      · rw [h1] at h3 ⊢
        rcases hmv : moveSwarm cfg r iters i (recordBest t g (recordEval c s)) with ⟨s3, e | u⟩
        · have hp := moveSwarm_error_position cfg r iters i _ s3 e hmv
          refine ⟨s3, e, rfl, hp, .inr ⟨c, ?_⟩,
            fun o fl h => by cases h⟩
          rw [hmv] at hfr
          exact hfr.2.2.2.2.2.2.2.2.2.2.2.1
        · rw [hmv] at h3
          exact absurd ⟨_, (hopeless_upsets hh b _ _).2 rfl⟩ (h3 rfl b hk hb)
      · rw [h1]
        obtain ⟨b', -, -, hu⟩ := h2.upset
        have hev' : s'.evals = s.evals ++ [(s.swarm.position, c)] := h2.evals
        exact ⟨s', e, rfl, h2.position, .inr ⟨c, hev'⟩,
          fun o fl h => ⟨(hopeless_upsets hh b' _ _).1 hu, c, rfl, hev'⟩⟩

/-- C90: with a hopeless combination every call of `optimize` with at least one iteration raises
after at most one evaluation, and the positions stay where they are; the exception is `TypeError`
whenever arrays would have let the call return. -/
theorem C90_hopeless (f : Form) (cfg : Config n d K) (hh : Hopeless cfg.bhStrategy f)
    (hk : cfg.kind ≠ .binary) (b : Bounds d K) (hb : cfg.bounds = some b) (r1 r2 : InitDraw n d K)
    (o : Opt n d K) (ho : constructF f cfg r1 r2 = .ok o)
    (ev : Nat → Mat n d K → Except Err (Costs n K)) (iters : Nat) (hit : iters ≠ 0)
    (nproc : Option Nat) (env : Nat → Draw n d K) (s : Opt n d K) :
    ∃ s' e, optimizeF f cfg ev iters nproc env s = (s', .error e) ∧
      s'.swarm.position = s.swarm.position ∧
      (s'.evals = s.evals ∨ ∃ c, s'.evals = s.evals ++ [(s.swarm.position, c)]) ∧
      (∀ x, (optimize cfg ev iters nproc env s).2 = .ok x → e = .typeError ∧
        ∃ c, s'.evals = s.evals ++ [(s.swarm.position, c)]) := by
  have hw : 0 < cfg.window := by
    unfold constructF at ho
    split at ho
    · cases ho
    · split at ho
      · cases ho
      · next hf =>
        unfold checkFtolIter at hf
        unfold Config.window
        split at hf
        · next h => simp_all
        · cases hf
        · cases hf
  obtain ⟨m, rfl⟩ := Nat.exists_eq_succ_of_ne_zero hit
  unfold optimizeF
  split
  · next hp =>
    refine ⟨_, _, rfl, rfl, .inl rfl, fun x hx => ?_⟩
    unfold optimize at hx
    rw [if_pos hp] at hx
    cases hx
  · next hp =>
    dsimp only
    obtain ⟨s', e, hi, h1, h2, h3⟩ := iterateF_hopeless hh hk hb (ev 0) (env 0) (m + 1) 0 hw [] _
      (prepare_hasMem cfg s (s.openPools + (if nproc.isSome then 1 else 0)))
    rw [loopF, hi]
    refine ⟨s', e, rfl, h1, h2, fun x hx => ?_⟩
    unfold optimize at hx
    rw [if_neg hp] at hx
    dsimp only at hx h3
    rw [loop] at hx
    rcases hit : iterate cfg (ev 0) (env 0) (m + 1) 0 [] { prepare cfg s with
      openPools := s.openPools + (if nproc.isSome then 1 else 0) } with ⟨o, e' | fl⟩
    · rw [hit] at hx; cases hx
    · obtain ⟨a, c, -, hc⟩ := h3 o fl hit
      exact ⟨a, c, hc⟩

/-! ### Combinations that always work -/

theorem harmless_upsets {st : String} {f : Form} (h : Harmless st f) (b : Bounds d K)
    (x : Mat n d K) (e : Err) : ¬ Upsets st f b x e := by
  unfold Upsets Hopeless Form.noArray Form.single
  rcases h with rfl | rfl | ⟨rfl, hs⟩ | ⟨rfl, rfl⟩
  · simp
  · simp
  · simp [hs]
  · simp

theorem optimizeF_harmless {f : Form} {cfg : Config n d K} (h : Harmless cfg.bhStrategy f)
    (ev : Nat → Mat n d K → Except Err (Costs n K)) (iters : Nat) (nproc : Option Nat)
    (env : Nat → Draw n d K) (s : Opt n d K) :
    optimizeF f cfg ev iters nproc env s = optimize cfg ev iters nproc env s := by
  rcases C90_call f cfg ev iters nproc env s with h' | ⟨s', e, b, -, -, hu⟩
  · exact h'
  · exact absurd hu (harmless_upsets h b _ e)

theorem resetSwarmF_eq {f : Form} {cfg : Config n d K}
    (h : f ≠ .scalar ∨ cfg.initPos.isSome ∨ cfg.bounds = none ∨ cfg.kind = .binary)
    (r : InitDraw n d K) : resetSwarmF f cfg r = resetSwarm cfg r := by
  unfold resetSwarmF
  rw [if_neg]
  rcases h with h | h | h | h
  · simp [h]
  · simp [Option.isNone_iff_eq_none, Option.isSome_iff_ne_none.1 h]
  · simp [h]
  · simp [Config.isBinary, h]

/-- C90: with a harmless combination everything is as with arrays: the constructor and every
sequence of calls, unless the bounds are numbers and the initial positions have to be drawn. -/
theorem C90_same (f : Form) (cfg : Config n d K) (h : Harmless cfg.bhStrategy f)
    (hf : f ≠ .scalar ∨ cfg.initPos.isSome ∨ cfg.bounds = none ∨ cfg.kind = .binary)
    (r1 r2 : InitDraw n d K) :
    constructF f cfg r1 r2 = construct cfg r1 r2 ∧
    (∀ ev iters nproc env s,
      optimizeF f cfg ev iters nproc env s = optimize cfg ev iters nproc env s) ∧
    ∀ s ops, runOpsF f cfg s ops = runOps cfg s ops := by
  have hr := fun r => resetSwarmF_eq hf r
  refine ⟨?_, fun ev iters nproc env s => optimizeF_harmless h ev iters nproc env s, fun s ops => ?_⟩
  · unfold constructF construct
    rw [hr, hr]
    rfl
  · unfold runOpsF runOps
    congr 1
    funext s op
    cases op with
    | optimize ev iters nproc env => exact congrArg Prod.fst (optimizeF_harmless h ev iters nproc env s)
    | reset r =>
      show (resetF f cfg r s).1 = (reset cfg r s).1
      unfold resetF reset
      rw [hr]
      rfl

/-- C90: `bounds=(0, 1)` with plain numbers: an optimizer whose other arguments are fine cannot be
constructed without `init_pos`. -/
theorem C90_numbers (cfg : Config n d K) (hk : cfg.kind ≠ .binary) (b : Bounds d K)
    (hb : cfg.bounds = some b) (hi : cfg.initPos = none) (r1 r2 : InitDraw n d K) (o : Opt n d K)
    (ho : construct cfg r1 r2 = .ok o) : constructF .scalar cfg r1 r2 = .error .indexError := by
  have hr : ∀ r, resetSwarmF .scalar cfg r = .error .indexError := by
    intro r
    unfold resetSwarmF
    rw [if_pos]
    cases hkk : cfg.kind <;> simp_all [Config.isBinary]
  unfold construct at ho
  unfold constructF
  rw [hr]
  split at ho
  · cases ho
  · next h1 =>
    rw [if_neg h1]
    cases hc : checkFtolIter cfg.ftolIter with
    | error e => rw [hc] at ho; cases ho
    | ok u => rfl

/-! ### Examples -/

namespace Ex

/-- Two particles in `[0, 6]²`. -/
def fenced (st : String) : Config 2 2 ℚ :=
  { gcfg 2 2 with center := fun _ => 1, bounds := some (fun _ => 0, fun _ => 6), bhStrategy := st }

/-- Two particles at `(5.75, 5.75)` with initial velocity `(0, v)`. -/
def nearEdge (v : ℚ) : InitDraw 2 2 ℚ :=
  { init 2 2 with pos := fun _ _ => 23 / 24, vel := fun _ j => v * j.val }

/-- Outcome of `iters` iterations with bounds of form `f`. -/
def outcomeF (f : Form) (st : String) (v : ℚ) (iters : Nat) : Option Err :=
  match constructF f (fenced st) (nearEdge v) (nearEdge v) with
  | .error e => some e
  | .ok s => match (optimizeF f (fenced st) (sphere 2 2) iters none (fun _ => draw 2 2) s).2 with
    | .error e => some e
    | .ok _ => none

end Ex

-- Lists and a fast particle: the first reflection raises; a slow one never needs a reflection.
example : Ex.outcomeF .list "reflective" (3 / 4) 3 = some .typeError := by decide +kernel
example : Ex.outcomeF .list "reflective" (1 / 4) 3 = none := by decide +kernel
example : Ex.outcomeF .array "reflective" (3 / 4) 3 = none := by decide +kernel
-- The default strategy of the three continuous optimizers takes lists.
example : Ex.outcomeF .list "periodic" (3 / 4) 3 = none := by decide +kernel
example : Ex.outcomeF .array1 "periodic" (3 / 4) 3 = some .indexError := by decide +kernel
example : Ex.outcomeF .list1 "periodic" (1 / 4) 3 = none := by decide +kernel
-- Hopeless combinations raise although nothing leaves the bounds.
example : Ex.outcomeF .list "shrink" 0 3 = some .typeError := by decide +kernel
example : Ex.outcomeF .list "intermediate" 0 3 = some .typeError := by decide +kernel
example : Ex.outcomeF .array1 "intermediate" 0 3 = none := by decide +kernel
example : Ex.outcomeF .scalar "nearest" 0 3 = some .indexError := by decide +kernel
example : Ex.outcomeF .list1 "nearest" (3 / 4) 3 = none := by decide +kernel
example : Ex.outcomeF .list "random" (3 / 4) 3 = none := by decide +kernel
example : Hopeless "shrink" .list := .inl ⟨.inl rfl, .inl rfl⟩
example : Harmless "periodic" .list := .inr (.inr (.inr ⟨rfl, rfl⟩))

end PySwarms
