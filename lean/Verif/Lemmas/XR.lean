import Verif.Basic
import Mathlib.Tactic.Ring
import Mathlib.Tactic.Linarith

/-! Order lemmas about cost values and NumPy reductions. -/

set_option linter.unusedSectionVars false

namespace PySwarms
namespace XR
variable {K : Type} [LinearOrder K]

theorem lt_irrefl (a : XR K) : lt a a = false := by cases a <;> simp [lt]

theorem lt_trans {a b c : XR K} (h1 : lt a b = true) (h2 : lt b c = true) : lt a c = true := by
  cases a <;> cases b <;> cases c <;> simp [lt] at *
  exact _root_.lt_trans h1 h2

theorem lt_asymm {a b : XR K} (h : lt a b = true) : lt b a = false := by
  cases hb : lt b a
  · rfl
  · have := lt_trans h hb; rw [lt_irrefl] at this; cases this

theorem lt_total {a b : XR K} (ha : a ≠ nan) (hb : b ≠ nan) :
    lt a b = true ∨ a = b ∨ lt b a = true := by
  cases a <;> cases b <;> simp [lt] at *
  rename_i x y; rcases lt_trichotomy x y with h | h | h <;> simp [h]

theorem left_ne_nan {a b : XR K} (h : lt a b = true) : a ≠ nan := by
  rintro rfl; simp [lt] at h

theorem right_ne_nan {a b : XR K} (h : lt a b = true) : b ≠ nan := by
  rintro rfl; cases a <;> simp [lt] at h

theorem lt_of_lt_of_not_lt {a b c : XR K} (h1 : lt a b = true) (hc : c ≠ nan)
    (h2 : lt c b = false) : lt a c = true := by
  cases a <;> cases b <;> cases c <;> simp [lt] at *
  exact lt_of_lt_of_le h1 h2

theorem lt_of_not_lt_of_lt {a b c : XR K} (ha : a ≠ nan) (h1 : lt b a = false)
    (h2 : lt b c = true) : lt a c = true := by
  cases a <;> cases b <;> cases c <;> simp [lt] at *
  exact lt_of_le_of_lt h1 h2

theorem not_lt_trans {a b c : XR K} (hb : b ≠ nan) (h1 : lt a b = false) (h2 : lt b c = false) :
    lt a c = false := by
  cases a <;> cases b <;> cases c <;> simp [lt] at *
  exact le_trans h2 h1

theorem eq_of_not_lt {a b : XR K} (ha : a ≠ nan) (hb : b ≠ nan) (h1 : lt a b = false)
    (h2 : lt b a = false) : a = b := by
  rcases lt_total ha hb with h | h | h
  · rw [h1] at h; cases h
  · exact h
  · rw [h2] at h; cases h

theorem not_pinf_lt (a : XR K) : lt pinf a = false := by cases a <;> simp [lt]

theorem lt_pinf_iff (a : XR K) : lt a pinf = true ↔ a ≠ nan ∧ a ≠ pinf := by
  cases a <;> simp [lt]

theorem isNan_iff (a : XR K) : a.isNan = true ↔ a = nan := by cases a <;> simp [isNan]

end XR

section argmin
variable {K : Type} [LinearOrder K] {ι : Type}

/-- the fold step of `argminOver` -/
def argStep (c : ι → XR K) (acc : Option ι) (i : ι) : Option ι :=
  match acc with
  | none => some i
  | some j => if npBetter (c i) (c j) then some i else some j

theorem argminOver_eq (c : ι → XR K) (l : List ι) :
    argminOver c l = l.foldl (argStep c) none := rfl

theorem npBetter_of_ne_nan {x y : XR K} (hx : x ≠ XR.nan) (hy : y ≠ XR.nan) :
    npBetter x y = XR.lt x y := by
  unfold npBetter
  cases x <;> cases y <;> simp_all [XR.isNan]

theorem foldl_argStep_some (c : ι → XR K) (l : List ι) (j : ι)
    (hj : c j ≠ XR.nan) (hl : ∀ i ∈ l, c i ≠ XR.nan) :
    ∃ k, l.foldl (argStep c) (some j) = some k ∧ c k ≠ XR.nan ∧
      ((k = j ∧ ∀ i ∈ l, XR.lt (c i) (c j) = false) ∨
       (∃ pre post, l = pre ++ k :: post ∧ XR.lt (c k) (c j) = true ∧
          (∀ i ∈ pre, XR.lt (c k) (c i) = true) ∧ ∀ i ∈ post, XR.lt (c i) (c k) = false)) := by
  induction l generalizing j with
  | nil => exact ⟨j, rfl, hj, Or.inl ⟨rfl, by simp⟩⟩
  | cons a l ih =>
    have ha : c a ≠ XR.nan := hl a (by simp)
    have hl' : ∀ i ∈ l, c i ≠ XR.nan := fun i hi => hl i (by simp [hi])
    simp only [List.foldl_cons]
    by_cases hb : XR.lt (c a) (c j) = true
    · have hs : argStep c (some j) a = some a := by
        simp [argStep, npBetter_of_ne_nan ha hj, hb]
      rw [hs]
      obtain ⟨k, hk, hkn, h⟩ := ih a ha hl'
      refine ⟨k, hk, hkn, Or.inr ?_⟩
      rcases h with ⟨rfl, h⟩ | ⟨pre, post, rfl, h1, h2, h3⟩
      · exact ⟨[], l, rfl, hb, by simp, h⟩
      · refine ⟨a :: pre, post, rfl, XR.lt_trans h1 hb, ?_, h3⟩
        intro i hi
        rcases List.mem_cons.1 hi with rfl | hi
        · exact h1
        · exact h2 i hi
    · simp only [Bool.not_eq_true] at hb
      have hs : argStep c (some j) a = some j := by
        simp [argStep, npBetter_of_ne_nan ha hj, hb]
      rw [hs]
      obtain ⟨k, hk, hkn, h⟩ := ih j hj hl'
      refine ⟨k, hk, hkn, ?_⟩
      rcases h with ⟨rfl, h⟩ | ⟨pre, post, rfl, h1, h2, h3⟩
      · left
        refine ⟨rfl, ?_⟩
        intro i hi
        rcases List.mem_cons.1 hi with rfl | hi
        · exact hb
        · exact h i hi
      · right
        refine ⟨a :: pre, post, rfl, h1, ?_, h3⟩
        intro i hi
        rcases List.mem_cons.1 hi with rfl | hi
        · exact XR.lt_of_lt_of_not_lt h1 ha hb
        · exact h2 i hi

/-- Characterisation of `argmin` on nan-free values: the first minimum. -/
theorem argminOver_spec (c : ι → XR K) (l : List ι) (hne : l ≠ [])
    (hl : ∀ i ∈ l, c i ≠ XR.nan) :
    ∃ k pre post, argminOver c l = some k ∧ l = pre ++ k :: post ∧
      (∀ i ∈ pre, XR.lt (c k) (c i) = true) ∧ ∀ i ∈ l, XR.lt (c i) (c k) = false := by
  cases l with
  | nil => exact absurd rfl hne
  | cons a l =>
    rw [argminOver_eq, List.foldl_cons]
    have hs : argStep c none a = some a := rfl
    rw [hs]
    obtain ⟨k, hk, hkn, h⟩ := foldl_argStep_some c l a (hl a (by simp))
      (fun i hi => hl i (by simp [hi]))
    rcases h with ⟨rfl, h⟩ | ⟨pre, post, rfl, h1, h2, h3⟩
    · refine ⟨k, [], l, hk, rfl, by simp, ?_⟩
      intro i hi
      rcases List.mem_cons.1 hi with rfl | hi
      · exact XR.lt_irrefl _
      · exact h i hi
    · refine ⟨k, a :: pre, post, hk, rfl, ?_, ?_⟩
      · intro i hi
        rcases List.mem_cons.1 hi with rfl | hi
        · exact h1
        · exact h2 i hi
      · intro i hi
        simp only [List.mem_cons, List.mem_append] at hi
        rcases hi with rfl | hi | rfl | hi
        · exact XR.lt_asymm h1
        · exact XR.lt_asymm (h2 i hi)
        · exact XR.lt_irrefl _
        · exact h3 i hi

theorem argminOver_eq_none_iff (c : ι → XR K) (l : List ι) : argminOver c l = none ↔ l = [] := by
  constructor
  · intro h
    cases l with
    | nil => rfl
    | cons a l =>
      exfalso
      rw [argminOver_eq, List.foldl_cons] at h
      have : ∀ (l : List ι) (j : ι), l.foldl (argStep c) (some j) ≠ none := by
        intro l
        induction l with
        | nil => simp
        | cons b l ih =>
          intro j
          simp only [List.foldl_cons]
          have : ∃ k, argStep c (some j) b = some k := by
            simp only [argStep]; split <;> exact ⟨_, rfl⟩
          obtain ⟨k, hk⟩ := this
          rw [hk]; exact ih k
      exact this l a h
  · rintro rfl; rfl

theorem argminOver_mem {c : ι → XR K} {l : List ι} {k : ι} (h : argminOver c l = some k) :
    k ∈ l := by
  have gen : ∀ (l : List ι) (acc : Option ι) (k : ι), l.foldl (argStep c) acc = some k →
      k ∈ l ∨ acc = some k := by
    intro l
    induction l with
    | nil => intro acc k h; right; simpa using h
    | cons a l ih =>
      intro acc k h
      simp only [List.foldl_cons] at h
      rcases ih _ _ h with h | h
      · left; simp [h]
      · cases acc with
        | none => simp [argStep] at h; subst h; left; simp
        | some j =>
          simp only [argStep] at h
          split at h
          · simp at h; subst h; left; simp
          · right; exact h
  rw [argminOver_eq] at h
  rcases gen l none k h with h | h
  · exact h
  · cases h

end argmin

section npmin
variable {K : Type} [LinearOrder K] {n : Nat}

theorem npArgmin_spec (c : Costs n K) (hn : 0 < n) (hc : ∀ i, c i ≠ XR.nan) :
    ∃ k, npArgmin c = some k ∧ (∀ i, XR.lt (c i) (c k) = false) ∧
      ∀ i, i < k → XR.lt (c k) (c i) = true := by
  obtain ⟨k, pre, post, h1, h2, h3, h4⟩ := argminOver_spec c (List.finRange n)
    (by intro h; have := congrArg List.length h; simp at this; omega) (fun i _ => hc i)
  refine ⟨k, h1, fun i => h4 i (List.mem_finRange i), ?_⟩
  intro i hi
  apply h3
  have hs : (List.finRange n).Pairwise (· < ·) := List.pairwise_lt_finRange n
  rw [h2] at hs
  have hmem : i ∈ pre ++ k :: post := by rw [← h2]; exact List.mem_finRange i
  rcases List.mem_append.1 hmem with h | h
  · exact h
  · exfalso
    rw [List.pairwise_append] at hs
    rcases List.mem_cons.1 h with rfl | h
    · exact lt_irrefl _ hi
    · have := (List.pairwise_cons.1 hs.2.1).1 i h
      exact lt_asymm hi this

theorem npArgmin_none (c : Costs n K) : npArgmin c = none ↔ n = 0 := by
  unfold npArgmin
  rw [argminOver_eq_none_iff]
  constructor
  · intro h; have := congrArg List.length h; simpa using this
  · rintro rfl; simp

theorem npArgmin_eq_some_iff (c : Costs n K) (hc : ∀ i, c i ≠ XR.nan) (k : Fin n) :
    npArgmin c = some k ↔ (∀ i, XR.lt (c i) (c k) = false) ∧
      ∀ i, i < k → XR.lt (c k) (c i) = true := by
  have hn : 0 < n := Nat.lt_of_le_of_lt (Nat.zero_le _) k.2
  obtain ⟨k', h1, h2, h3⟩ := npArgmin_spec c hn hc
  constructor
  · intro h
    rw [h1] at h
    cases h
    exact ⟨h2, h3⟩
  · rintro ⟨h4, h5⟩
    rw [h1]
    rcases lt_trichotomy k k' with h | h | h
    · have := h3 k h; rw [h4 k'] at this; cases this
    · rw [h]
    · have := h5 k' h; rw [h2 k] at this; cases this

end npmin
end PySwarms
