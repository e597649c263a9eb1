import Verif.Model.Functions
import Verif.Props.Objective
import Mathlib.Analysis.SpecialFunctions.Trigonometric.Bounds
import Mathlib.Analysis.SpecialFunctions.Trigonometric.Arctan
import Mathlib.Topology.Order.IntermediateValue
import Mathlib.Tactic.NormNum
import Mathlib.Tactic.Linarith
import Mathlib.Tactic.Positivity
import Mathlib.Tactic.FieldSimp

/-! # C45 – C47: the benchmark functions -/

set_option linter.unusedSectionVars false
set_option linter.unusedSimpArgs false
set_option linter.unusedVariables false

namespace PySwarms.Bench

open Real

/-- A benchmark function: takes a matrix of any shape. -/
abbrev Fn := ∀ n d : Nat, Mat n d ℝ → Except Err (Vec n ℝ)

/-! ## Specifications -/

/-- The function takes two-dimensional input from the box `lo ≤ x ≤ hi` only: another number of
columns raises `IndexError` (even without particles), a coordinate outside the box raises
`ValueError`, everything else is accepted. -/
def Accepts2 (f : Fn) (lo hi : Fin 2 → ℝ) : Prop :=
  (∀ n d (x : Mat n d ℝ), d ≠ 2 → f n d x = .error .indexError) ∧
  (∀ n (x : Mat n 2 ℝ), (∃ i j, x i j < lo j ∨ hi j < x i j) → f n 2 x = .error .valueError) ∧
  (∀ n (x : Mat n 2 ℝ), (∀ i j, lo j ≤ x i j ∧ x i j ≤ hi j) → ∃ c, f n 2 x = .ok c)

/-- The function takes input of any positive number of dimensions from the cube
`lo ≤ x ≤ hi`. -/
def AcceptsCube (f : Fn) (lo hi : ℝ) : Prop :=
  (∀ n d (x : Mat n d ℝ), (∃ i j, x i j < lo ∨ hi < x i j) → f n d x = .error .valueError) ∧
  (∀ n d (x : Mat n d ℝ), 0 < d → (∀ i j, lo ≤ x i j ∧ x i j ≤ hi) → ∃ c, f n d x = .ok c)

/-- The function takes every input. -/
def AcceptsAll (f : Fn) : Prop := ∀ n d (x : Mat n d ℝ), ∃ c, f n d x = .ok c

/-- The value for a particle depends only on the position of this particle, not on the others, on
its index or on their number; and a swarm is accepted iff each of its particles is. -/
def RowsOnly (f : Fn) : Prop :=
  (∀ n n' d (x : Mat n d ℝ) (x' : Mat n' d ℝ) c c', f n d x = .ok c → f n' d x' = .ok c' →
    ∀ i i', x i = x' i' → c i = c' i') ∧
  ∀ n d (x : Mat n d ℝ), 0 < n →
    ((∃ c, f n d x = .ok c) ↔ ∀ i, ∃ c, f 1 d (fun _ => x i) = .ok c)

/-- `v` is the global minimum of the function in `d` dimensions over its whole domain, attained at
`p` (which is in the domain) and nowhere else. -/
def UniqueMin (f : Fn) (d : Nat) (p : Vec d ℝ) (v : ℝ) : Prop :=
  f 1 d (fun _ => p) = .ok (fun _ => v) ∧
  ∀ n (x : Mat n d ℝ) c, f n d x = .ok c → ∀ i, v ≤ c i ∧ (c i = v ↔ x i = p)

/-! ## Normal forms -/

/-- Normal form of a two-dimensional function. -/
structure Form2 (f : Fn) (lo hi : Fin 2 → ℝ) (g : ℝ → ℝ → ℝ) : Prop where
  dim : ∀ n d (x : Mat n d ℝ), d ≠ 2 → f n d x = .error .indexError
  out : ∀ n (x : Mat n 2 ℝ), ¬ (∀ i j, lo j ≤ x i j ∧ x i j ≤ hi j) → f n 2 x = .error .valueError
  val : ∀ n (x : Mat n 2 ℝ), (∀ i j, lo j ≤ x i j ∧ x i j ≤ hi j) →
    f n 2 x = .ok fun i => g (x i 0) (x i 1)

theorem Form2.accepts {f : Fn} {lo hi g} (h : Form2 f lo hi g) : Accepts2 f lo hi := by
  refine ⟨h.dim, fun n x hx => h.out n x ?_, fun n x hx => ⟨_, h.val n x hx⟩⟩
  obtain ⟨i, j, hij⟩ := hx
  intro hall
  have := hall i j
  rcases hij with hij | hij <;> linarith [this.1, this.2]

theorem Form2.inBox {f : Fn} {lo hi g} (h : Form2 f lo hi g) {n : Nat} {x : Mat n 2 ℝ} {c}
    (hc : f n 2 x = .ok c) : (∀ i j, lo j ≤ x i j ∧ x i j ≤ hi j) ∧ c = fun i => g (x i 0) (x i 1) := by
  by_cases hx : ∀ i j, lo j ≤ x i j ∧ x i j ≤ hi j
  · rw [h.val n x hx] at hc
    cases hc
    exact ⟨hx, rfl⟩
  · rw [h.out n x hx] at hc; cases hc

theorem Form2.rowsOnly {f : Fn} {lo hi g} (h : Form2 f lo hi g) : RowsOnly f := by
  constructor
  · intro n n' d x x' c c' hc hc' i i' hii
    by_cases hd : d = 2
    · subst hd
      rw [(h.inBox hc).2, (h.inBox hc').2]
      simp only [hii]
    · rw [h.dim n d x hd] at hc; cases hc
  · intro n d x hn
    by_cases hd : d = 2
    · subst hd
      constructor
      · rintro ⟨c, hc⟩ i
        exact ⟨_, h.val 1 _ fun _ j => (h.inBox hc).1 i j⟩
      · intro hall
        refine ⟨_, h.val n x fun i j => ?_⟩
        obtain ⟨c, hc⟩ := hall i
        exact (h.inBox hc).1 0 j
    · constructor
      · rintro ⟨c, hc⟩; rw [h.dim n d x hd] at hc; cases hc
      · intro hall
        obtain ⟨c, hc⟩ := hall ⟨0, hn⟩
        rw [h.dim 1 d _ hd] at hc; cases hc

theorem Form2.uniqueMin {f : Fn} {lo hi g} (h : Form2 f lo hi g) (a b v : ℝ)
    (ha : lo 0 ≤ a ∧ a ≤ hi 0) (hb : lo 1 ≤ b ∧ b ≤ hi 1) (hv : g a b = v)
    (hg : ∀ x y, lo 0 ≤ x → x ≤ hi 0 → lo 1 ≤ y → y ≤ hi 1 → v ≤ g x y ∧ (g x y = v → x = a ∧ y = b)) :
    UniqueMin f 2 ![a, b] v := by
  constructor
  · rw [h.val 1 (fun _ => ![a, b])]
    · simp [hv]
    · intro _ j
      fin_cases j
      · exact ha
      · exact hb
  · intro n x c hc i
    obtain ⟨h1, rfl⟩ := h.inBox hc
    have := hg (x i 0) (x i 1) (h1 i 0).1 (h1 i 0).2 (h1 i 1).1 (h1 i 1).2
    refine ⟨this.1, fun he => ?_, fun he => ?_⟩
    · obtain ⟨e0, e1⟩ := this.2 he
      funext j
      fin_cases j
      · exact e0
      · exact e1
    · dsimp only
      rw [he]; simpa using hv

/-- Normal form of a function of any number of dimensions (`P` says which numbers are accepted). -/
structure FormN (f : Fn) (P : Nat → Prop) (ok : ℝ → Prop) (g : ∀ d, Vec d ℝ → ℝ) : Prop where
  out : ∀ n d (x : Mat n d ℝ), ¬ (∀ i j, ok (x i j)) → f n d x = .error .valueError
  dim : ∀ n d (x : Mat n d ℝ), ¬ P d → ∃ e, f n d x = .error e
  val : ∀ n d (x : Mat n d ℝ), P d → (∀ i j, ok (x i j)) → f n d x = .ok fun i => g d (x i)

theorem FormN.inBox {f : Fn} {P ok g} (h : FormN f P ok g) {n d : Nat} {x : Mat n d ℝ} {c}
    (hc : f n d x = .ok c) : P d ∧ (∀ i j, ok (x i j)) ∧ c = fun i => g d (x i) := by
  by_cases hd : P d
  · by_cases hx : ∀ i j, ok (x i j)
    · rw [h.val n d x hd hx] at hc
      cases hc
      exact ⟨hd, hx, rfl⟩
    · rw [h.out n d x hx] at hc; cases hc
  · obtain ⟨e, he⟩ := h.dim n d x hd
    rw [he] at hc; cases hc

theorem FormN.rowsOnly {f : Fn} {P ok g} (h : FormN f P ok g) : RowsOnly f := by
  constructor
  · intro n n' d x x' c c' hc hc' i i' hii
    rw [(h.inBox hc).2.2, (h.inBox hc').2.2]
    simp only [hii]
  · intro n d x hn
    constructor
    · rintro ⟨c, hc⟩ i
      exact ⟨_, h.val 1 d _ (h.inBox hc).1 fun _ j => (h.inBox hc).2.1 i j⟩
    · intro hall
      obtain ⟨c0, hc0⟩ := hall ⟨0, hn⟩
      refine ⟨_, h.val n d x (h.inBox hc0).1 fun i j => ?_⟩
      obtain ⟨c, hc⟩ := hall i
      exact (h.inBox hc).2.1 0 j

theorem FormN.uniqueMin {f : Fn} {P ok g} (h : FormN f P ok g) (d : Nat) (hd : P d) (p : Vec d ℝ)
    (v : ℝ) (hp : ∀ j, ok (p j)) (hv : g d p = v)
    (hg : ∀ x : Vec d ℝ, (∀ j, ok (x j)) → v ≤ g d x ∧ (g d x = v → x = p)) :
    UniqueMin f d p v := by
  constructor
  · rw [h.val 1 d (fun _ => p) hd fun _ j => hp j, hv]
  · intro n x c hc i
    obtain ⟨-, h1, rfl⟩ := h.inBox hc
    refine ⟨(hg (x i) (h1 i)).1, (hg (x i) (h1 i)).2, fun he => ?_⟩
    dsimp only
    rw [he]; exact hv

theorem within_two (lo hi : ℝ) {n : Nat} (x : Mat n 2 ℝ) :
    within lo hi x ↔ ∀ i j, (fun _ : Fin 2 => lo) j ≤ x i j ∧ x i j ≤ (fun _ : Fin 2 => hi) j :=
  Iff.rfl

/-- Normal form of a function defined by the usual two tests. -/
theorem form2_of (f : Fn) (lo hi : ℝ) (g : ℝ → ℝ → ℝ)
    (dim : ∀ n d (x : Mat n d ℝ), d ≠ 2 → f n d x = .error .indexError)
    (out : ∀ n (x : Mat n 2 ℝ), ¬ within lo hi x → f n 2 x = .error .valueError)
    (val : ∀ n (x : Mat n 2 ℝ), within lo hi x → f n 2 x = .ok fun i => g (x i 0) (x i 1)) :
    Form2 f (fun _ => lo) (fun _ => hi) g := ⟨dim, out, val⟩

theorem beale_form : Form2 (fun _ _ => beale) (fun _ => -4.5) (fun _ => 4.5) fun x y =>
    (1.5 - x + x * y) ^ 2 + (2.25 - x + x * y ^ 2) ^ 2 + (2.625 - x + x * y ^ 3) ^ 2 := by
  refine form2_of _ _ _ _ (fun n d x h => ?_) (fun n x h => ?_) (fun n x h => ?_)
  · simp only [beale, h, dif_neg, not_false_eq_true]
  · simp only [beale, h, dif_pos, if_false]
  · simp only [beale, h, dif_pos, if_true]
    rfl

theorem booth_form : Form2 (fun _ _ => booth) (fun _ => -10) (fun _ => 10) fun x y =>
    (x + 2 * y - 7) ^ 2 + (2 * x + y - 5) ^ 2 := by
  refine form2_of _ _ _ _ (fun n d x h => ?_) (fun n x h => ?_) (fun n x h => ?_)
  · simp only [booth, h, dif_neg, not_false_eq_true]
  · simp only [booth, h, dif_pos, if_false]
  · simp only [booth, h, dif_pos, if_true]
    rfl

theorem crossintray_form : Form2 (fun _ _ => crossintray) (fun _ => -10) (fun _ => 10) fun x y =>
    -0.0001 * (abs (sin x * sin y * exp (abs (100 - sqrt (x ^ 2 + y ^ 2) / π))) + 1) ^ (0.1 : ℝ) := by
  refine form2_of _ _ _ _ (fun n d x h => ?_) (fun n x h => ?_) (fun n x h => ?_)
  · simp only [crossintray, h, dif_neg, not_false_eq_true]
  · simp only [crossintray, h, dif_pos, if_false]
  · simp only [crossintray, h, dif_pos, if_true]
    rfl

theorem easom_form : Form2 (fun _ _ => easom) (fun _ => -100) (fun _ => 100) fun x y =>
    -1 * cos x * cos y * exp (-1 * ((x - π) ^ 2 + (y - π) ^ 2)) := by
  refine form2_of _ _ _ _ (fun n d x h => ?_) (fun n x h => ?_) (fun n x h => ?_)
  · simp only [easom, h, dif_neg, not_false_eq_true]
  · simp only [easom, h, dif_pos, if_false]
  · simp only [easom, h, dif_pos, if_true]
    rfl

theorem eggholder_form : Form2 (fun _ _ => eggholder) (fun _ => -512) (fun _ => 512) fun x y =>
    -(y + 47) * sin (sqrt |x / 2 + y + 47|) - x * sin (sqrt |x - (y + 47)|) := by
  refine form2_of _ _ _ _ (fun n d x h => ?_) (fun n x h => ?_) (fun n x h => ?_)
  · simp only [eggholder, h, dif_neg, not_false_eq_true]
  · simp only [eggholder, h, dif_pos, if_false]
  · simp only [eggholder, h, dif_pos, if_true]
    rfl

theorem goldstein_form : Form2 (fun _ _ => goldstein) (fun _ => -2) (fun _ => 2) fun x y =>
    (1 + (x + y + 1) ^ 2 * (19 - 14 * x + 3 * x ^ 2 - 14 * y + 6 * x * y + 3 * y ^ 2))
    * (30 + (2 * x - 3 * y) ^ 2 *
      (18 - 32 * x + 12 * x ^ 2 + 48 * y - 36 * x * y + 27 * y ^ 2)) := by
  refine form2_of _ _ _ _ (fun n d x h => ?_) (fun n x h => ?_) (fun n x h => ?_)
  · simp only [goldstein, h, dif_neg, not_false_eq_true]
  · simp only [goldstein, h, dif_pos, if_false]
  · simp only [goldstein, h, dif_pos, if_true]
    rfl

theorem himmelblau_form : Form2 (fun _ _ => himmelblau) (fun _ => -5) (fun _ => 5) fun x y =>
    (x ^ 2 + y - 11) ^ 2 + (x + y ^ 2 - 7) ^ 2 := by
  refine form2_of _ _ _ _ (fun n d x h => ?_) (fun n x h => ?_) (fun n x h => ?_)
  · simp only [himmelblau, h, dif_neg, not_false_eq_true]
  · simp only [himmelblau, h, dif_pos, if_false]
  · simp only [himmelblau, h, dif_pos, if_true]
    rfl

theorem holdertable_form : Form2 (fun _ _ => holdertable) (fun _ => -10) (fun _ => 10) fun x y =>
    -abs (sin x * cos y * exp (abs (1 - sqrt (x ^ 2 + y ^ 2) / π))) := by
  refine form2_of _ _ _ _ (fun n d x h => ?_) (fun n x h => ?_) (fun n x h => ?_)
  · simp only [holdertable, h, dif_neg, not_false_eq_true]
  · simp only [holdertable, h, dif_pos, if_false]
  · simp only [holdertable, h, dif_pos, if_true]
    rfl

theorem levi_form : Form2 (fun _ _ => levi) (fun _ => -10) (fun _ => 10) fun x y =>
    sin (π * (1 + (x - 1) / 4)) ^ 2
      + (x - 1) ^ 2 * (1 + 10 * sin (π * (1 + (x - 1) / 4) + 1) ^ 2)
      + (1 + (y - 1) / 4 - 1) ^ 2 * (1 + sin (2 * π * (1 + (y - 1) / 4)) ^ 2) := by
  refine form2_of _ _ _ _ (fun n d x h => ?_) (fun n x h => ?_) (fun n x h => ?_)
  · simp only [levi, h, dif_neg, not_false_eq_true]
  · simp only [levi, h, dif_pos, if_false]
  · simp only [levi, h, dif_pos, if_true]
    congr 1
    funext i
    simp [each, col, num, maskedSum1, Fin.sum_univ_two]

theorem matyas_form : Form2 (fun _ _ => matyas) (fun _ => -10) (fun _ => 10) fun x y =>
    0.26 * (x ^ 2 + y ^ 2) - 0.48 * x * y := by
  refine form2_of _ _ _ _ (fun n d x h => ?_) (fun n x h => ?_) (fun n x h => ?_)
  · simp only [matyas, h, dif_neg, not_false_eq_true]
  · simp only [matyas, h, dif_pos, if_false]
  · simp only [matyas, h, dif_pos, if_true]
    rfl

theorem schaffer2_form : Form2 (fun _ _ => schaffer2) (fun _ => -100) (fun _ => 100) fun x y =>
    0.5 + (sin (x ^ 2 - y ^ 2) ^ 2 - 0.5) / (1 + 0.001 * (x ^ 2 + y ^ 2)) ^ 2 := by
  refine form2_of _ _ _ _ (fun n d x h => ?_) (fun n x h => ?_) (fun n x h => ?_)
  · simp only [schaffer2, h, dif_neg, not_false_eq_true]
  · simp only [schaffer2, h, dif_pos, if_false]
  · simp only [schaffer2, h, dif_pos, if_true]
    rfl

theorem threehump_form : Form2 (fun _ _ => threehump) (fun _ => -5) (fun _ => 5) fun x y =>
    2 * x ^ 2 - 1.05 * x ^ 4 + x ^ 6 / 6 + x * y + y ^ 2 := by
  refine form2_of _ _ _ _ (fun n d x h => ?_) (fun n x h => ?_) (fun n x h => ?_)
  · simp only [threehump, h, dif_neg, not_false_eq_true]
  · simp only [threehump, h, dif_pos, if_false]
  · simp only [threehump, h, dif_pos, if_true]
    rfl

open Classical in
theorem bukin6_form : Form2 (fun _ _ => bukin6) ![-15, -3] ![-5, 3] fun x y =>
    100 * sqrt |y - 0.01 * x ^ 2| + 0.01 * |x + 10| := by
  have hiff : ∀ n (x : Mat n 2 ℝ), (∀ i j, (![-15, -3] : Fin 2 → ℝ) j ≤ x i j ∧
      x i j ≤ (![-5, 3] : Fin 2 → ℝ) j) ↔
      withinV (-15) (-5) (col x 0) ∧ withinV (-3) 3 (col x 1) := by
    intro n x
    simp only [withinV, col, Fin.forall_fin_two, Matrix.cons_val_zero, Matrix.cons_val_one,
      forall_and]
    tauto
  refine ⟨fun n d x h => ?_, fun n x h => ?_, fun n x h => ?_⟩
  · simp only [bukin6, h, dif_neg, not_false_eq_true]
  · rw [hiff] at h
    unfold bukin6
    rw [dif_pos rfl]
    change (if withinV (-15) (-5) (col x 0) then if withinV (-3) 3 (col x 1) then _ else _ else _) = _
    by_cases h0 : withinV (-15) (-5) (col x 0)
    · rw [if_pos h0, if_neg fun h1 => h ⟨h0, h1⟩]
    · rw [if_neg h0]
  · rw [hiff] at h
    unfold bukin6
    rw [dif_pos rfl]
    change (if withinV (-15) (-5) (col x 0) then if withinV (-3) 3 (col x 1) then _ else _ else _) = _
    rw [if_pos h.1, if_pos h.2]
    rfl

theorem sphere_form : FormN (fun _ _ => sphere) (fun _ => True) (fun _ => True)
    fun _ x => ∑ j, x j ^ 2 :=
  ⟨fun n d x h => absurd (fun _ _ => trivial) h, fun n d x h => absurd trivial h,
    fun n d x _ _ => rfl⟩

theorem rosenbrock_form : FormN (fun _ _ => rosenbrock) (fun _ => True) (fun _ => True)
    fun d x => ∑ j : Fin (d - 1), (100 * (x ⟨j.1 + 1, by omega⟩ - x ⟨j.1, by omega⟩ ^ 2) ^ 2
      + (1 - x ⟨j.1, by omega⟩) ^ 2) :=
  ⟨fun n d x h => absurd (fun _ _ => trivial) h, fun n d x h => absurd trivial h,
    fun n d x _ _ => rfl⟩

theorem rastrigin_form : FormN (fun _ _ => rastrigin) (fun _ => True)
    (fun t => -5.12 ≤ t ∧ t ≤ 5.12)
    fun d x => 10.0 * d + ∑ j, (x j ^ 2 - 10.0 * cos (2.0 * π * x j)) := by
  refine ⟨fun n d x h => ?_, fun n d x h => absurd trivial h, fun n d x _ h => ?_⟩
  · exact if_neg h
  · exact if_pos h

theorem ackley_form : FormN (fun _ _ => ackley) (fun d => d ≠ 0) (fun t => -32 ≤ t ∧ t ≤ 32)
    fun d x => -20.0 * exp (-0.2 * sqrt (1 / d * ∑ j, x j ^ 2))
      - exp (1 / d * ∑ j, cos (2 * π * x j)) + 20.0 + exp 1 := by
  refine ⟨fun n d x h => if_neg h, fun n d x h => ?_, fun n d x hd h => ?_⟩
  · by_cases hw : within (-32) 32 x
    · refine ⟨.zeroDivision, ?_⟩
      simp only [not_not] at h
      unfold ackley
      rw [if_pos hw, if_pos h]
    · exact ⟨_, if_neg hw⟩
  · unfold ackley
    rw [if_pos (show within (-32) 32 x from h), if_neg hd]
    rfl

/-! ## C45 -/

theorem C45_beale : Accepts2 (fun _ _ => beale) (fun _ => -4.5) (fun _ => 4.5) := beale_form.accepts
theorem C45_booth : Accepts2 (fun _ _ => booth) (fun _ => -10) (fun _ => 10) := booth_form.accepts
theorem C45_bukin6 : Accepts2 (fun _ _ => bukin6) ![-15, -3] ![-5, 3] := bukin6_form.accepts
theorem C45_crossintray : Accepts2 (fun _ _ => crossintray) (fun _ => -10) (fun _ => 10) :=
  crossintray_form.accepts
theorem C45_easom : Accepts2 (fun _ _ => easom) (fun _ => -100) (fun _ => 100) := easom_form.accepts
theorem C45_eggholder : Accepts2 (fun _ _ => eggholder) (fun _ => -512) (fun _ => 512) :=
  eggholder_form.accepts
theorem C45_goldstein : Accepts2 (fun _ _ => goldstein) (fun _ => -2) (fun _ => 2) :=
  goldstein_form.accepts
theorem C45_himmelblau : Accepts2 (fun _ _ => himmelblau) (fun _ => -5) (fun _ => 5) :=
  himmelblau_form.accepts
theorem C45_holdertable : Accepts2 (fun _ _ => holdertable) (fun _ => -10) (fun _ => 10) :=
  holdertable_form.accepts
theorem C45_levi : Accepts2 (fun _ _ => levi) (fun _ => -10) (fun _ => 10) := levi_form.accepts
theorem C45_matyas : Accepts2 (fun _ _ => matyas) (fun _ => -10) (fun _ => 10) := matyas_form.accepts
theorem C45_schaffer2 : Accepts2 (fun _ _ => schaffer2) (fun _ => -100) (fun _ => 100) :=
  schaffer2_form.accepts
theorem C45_threehump : Accepts2 (fun _ _ => threehump) (fun _ => -5) (fun _ => 5) :=
  threehump_form.accepts
theorem C45_sphere : AcceptsAll fun _ _ => sphere := fun n d x =>
  ⟨_, sphere_form.val n d x trivial fun _ _ => trivial⟩
theorem C45_rosenbrock : AcceptsAll fun _ _ => rosenbrock := fun n d x =>
  ⟨_, rosenbrock_form.val n d x trivial fun _ _ => trivial⟩

theorem FormN.acceptsCube {f : Fn} {P lo hi g} (hP : ∀ d, 0 < d → P d)
    (h : FormN f P (fun t => lo ≤ t ∧ t ≤ hi) g) : AcceptsCube f lo hi := by
  refine ⟨fun n d x hx => h.out n d x ?_, fun n d x hd hx => ⟨_, h.val n d x (hP d hd) hx⟩⟩
  obtain ⟨i, j, hij⟩ := hx
  intro hall
  have := hall i j
  rcases hij with hij | hij <;> linarith [this.1, this.2]

theorem C45_rastrigin : AcceptsCube (fun _ _ => rastrigin) (-5.12) 5.12 :=
  rastrigin_form.acceptsCube fun _ _ => trivial
theorem C45_ackley : AcceptsCube (fun _ _ => ackley) (-32) 32 :=
  ackley_form.acceptsCube fun _ hd => Nat.pos_iff_ne_zero.1 hd

/-! ## C47 -/

theorem C47_rows_only :
    RowsOnly (fun _ _ => ackley) ∧ RowsOnly (fun _ _ => beale) ∧ RowsOnly (fun _ _ => booth) ∧
    RowsOnly (fun _ _ => bukin6) ∧ RowsOnly (fun _ _ => crossintray) ∧
    RowsOnly (fun _ _ => easom) ∧ RowsOnly (fun _ _ => eggholder) ∧
    RowsOnly (fun _ _ => goldstein) ∧ RowsOnly (fun _ _ => himmelblau) ∧
    RowsOnly (fun _ _ => holdertable) ∧ RowsOnly (fun _ _ => levi) ∧
    RowsOnly (fun _ _ => matyas) ∧ RowsOnly (fun _ _ => rastrigin) ∧
    RowsOnly (fun _ _ => rosenbrock) ∧ RowsOnly (fun _ _ => schaffer2) ∧
    RowsOnly (fun _ _ => sphere) ∧ RowsOnly (fun _ _ => threehump) :=
  ⟨ackley_form.rowsOnly, beale_form.rowsOnly, booth_form.rowsOnly, bukin6_form.rowsOnly,
    crossintray_form.rowsOnly, easom_form.rowsOnly, eggholder_form.rowsOnly,
    goldstein_form.rowsOnly, himmelblau_form.rowsOnly, holdertable_form.rowsOnly,
    levi_form.rowsOnly, matyas_form.rowsOnly, rastrigin_form.rowsOnly, rosenbrock_form.rowsOnly,
    schaffer2_form.rowsOnly, sphere_form.rowsOnly, threehump_form.rowsOnly⟩

/-- A benchmark function used as objective. -/
noncomputable def asObjective (f : Fn) (d : Nat) : Objective d ℝ := fun x =>
  match f x.length d (fun i => x[i]) with
  | .error e => .error e
  | .ok c => .ok ((List.finRange x.length).map fun i => XR.fin (c i))

/-- C47 (splits): for a function with the row property that accepts empty input in `d` dimensions
and whose exceptions are all alike, any parallel evaluation returns what the serial one returns,
and raises iff the serial one raises. -/
theorem C47_parallel (f : Fn) (hf : RowsOnly f) (d : Nat) (h0 : ∀ x : Mat 0 d ℝ, ∃ c, f 0 d x = .ok c)
    (p : Nat) (hp : 0 < p) (sched : List Nat) (hs : IsSchedule sched p) (x : List (Vec d ℝ)) :
    (∀ l, computeObjective (asObjective f d) none x = .ok l →
      computeObjective (asObjective f d) (some (p, sched)) x = .ok l) ∧
    ((∃ e, computeObjective (asObjective f d) none x = .error e) ↔
      ∃ e, computeObjective (asObjective f d) (some (p, sched)) x = .error e) := by
  classical
  -- replace every exception by one and the same
  let q : Objective d ℝ := fun x => match asObjective f d x with
    | .error _ => .error .valueError
    | .ok l => .ok l
  let g : Vec d ℝ → Except Err (XR ℝ) := fun a => match f 1 d (fun _ => a) with
    | .error _ => .error .valueError
    | .ok c => .ok (.fin (c 0))
  have hq : RowWiseRaising q g := by
    constructor
    · intro x v hv
      have hok : ∃ c, f x.length d (fun i => x[i]) = .ok c := by
        by_cases hx : 0 < x.length
        · rw [hf.2 _ _ _ hx]
          intro i
          have := hv x[i] (List.getElem_mem _)
          simp only [g] at this
          rcases hfi : f 1 d (fun _ => x[i]) with e | c
          · rw [hfi] at this; cases this
          · exact ⟨c, rfl⟩
        · have : x = [] := List.length_eq_zero_iff.1 (by omega)
          subst this
          exact h0 _
      obtain ⟨c, hc⟩ := hok
      have : asObjective f d x = .ok ((List.finRange x.length).map fun i => XR.fin (c i)) := by
        unfold asObjective
        rw [hc]
      simp only [q, this, Except.ok.injEq]
      apply List.ext_getElem
      · simp
      · intro i h1 h2
        simp only [List.getElem_map, List.getElem_finRange]
        have hi : i < x.length := by simpa using h2
        have := hv x[i] (List.getElem_mem _)
        simp only [g] at this
        rcases hfi : f 1 d (fun _ => x[i]) with e | c'
        · rw [hfi] at this; cases this
        · rw [hfi] at this
          simp only [Except.ok.injEq] at this
          rw [← this]
          congr 1
          exact hf.1 _ _ _ _ _ _ _ hc hfi _ _ rfl
    · rintro x ⟨a, ha, e, hae⟩
      refine ⟨a, ha, .valueError, ?_, ?_⟩
      · simp only [g] at hae ⊢
        split at hae
        · rfl
        · cases hae
      · rcases hfx : f x.length d (fun i => x[i]) with e' | c
        · simp only [q, asObjective, hfx]
        · exfalso
          obtain ⟨i, hi, rfl⟩ := List.getElem_of_mem ha
          have := (hf.2 x.length d (fun i => x[i]) (by omega)).1 ⟨c, hfx⟩ ⟨i, hi⟩
          obtain ⟨c', hc'⟩ := this
          simp only [g] at hae
          have hc'' : f 1 d (fun _ => x[i]) = .ok c' := hc'
          rw [hc''] at hae
          cases hae
  have hqser : ∀ x l, asObjective f d x = .ok l ↔ q x = .ok l := by
    intro x l
    simp only [q]
    cases asObjective f d x <;> simp
  have hqerr : ∀ x, (∃ e, asObjective f d x = .error e) ↔ q x = .error .valueError := by
    intro x
    simp only [q]
    cases asObjective f d x <;> simp
  obtain ⟨hs1, hs2, -⟩ := C30_split x p hp
  have hmain := C30_exceptions q g hq p hp sched hs x
  have hpm := poolMap_spec (asObjective f d) (arraySplit x p) sched (by rw [hs2]; exact hs)
  have hpmq := poolMap_spec q (arraySplit x p) sched (by rw [hs2]; exact hs)
  -- the pool for the objective and for its variant agree
  have hagree : (∀ l, computeObjective q (some (p, sched)) x = .ok l →
      computeObjective (asObjective f d) (some (p, sched)) x = .ok l) ∧
      ((∃ e, computeObjective q (some (p, sched)) x = .error e) ↔
        ∃ e, computeObjective (asObjective f d) (some (p, sched)) x = .error e) := by
    by_cases hbad : ∃ c ∈ arraySplit x p, ∃ e, asObjective f d c = .error e
    · obtain ⟨c, hc, he⟩ := hbad
      obtain ⟨c1, _, e1, _, h1⟩ := hpm.2 ⟨c, hc, he⟩
      obtain ⟨c2, _, e2, _, h2⟩ := hpmq.2 ⟨c, hc, .valueError, (hqerr c).1 he⟩
      have h1' : computeObjective (asObjective f d) (some (p, sched)) x = .error e1 := by
        unfold computeObjective; dsimp only; rw [h1]
      have h2' : computeObjective q (some (p, sched)) x = .error e2 := by
        unfold computeObjective; dsimp only; rw [h2]
      rw [h1', h2']
      exact ⟨fun l hl => (nomatch hl), ⟨fun _ => ⟨_, rfl⟩, fun _ => ⟨_, rfl⟩⟩⟩
    · have hval : ∀ c ∈ arraySplit x p, ∃ l, asObjective f d c = .ok l := by
        intro c hc
        rcases h : asObjective f d c with e | l
        · exact absurd ⟨c, hc, e, h⟩ hbad
        · exact ⟨l, rfl⟩
      let v : List (Vec d ℝ) → List (XR ℝ) := fun c => match asObjective f d c with
        | .ok l => l
        | .error _ => []
      have hv : ∀ c ∈ arraySplit x p, asObjective f d c = .ok (v c) := by
        intro c hc
        obtain ⟨l, hl⟩ := hval c hc
        simp only [v, hl]
      have h1 := hpm.1 v hv
      have h2 := hpmq.1 v fun c hc => (hqser c _).1 (hv c hc)
      have : computeObjective q (some (p, sched)) x =
          computeObjective (asObjective f d) (some (p, sched)) x := by
        unfold computeObjective; dsimp only; rw [h1, h2]
      rw [this]
      exact ⟨fun l hl => hl, Iff.rfl⟩
  constructor
  · intro l hl
    exact hagree.1 l (hmain.1 l ((hqser x l).1 hl))
  · rw [← hagree.2, ← hmain.2.1]
    constructor
    · intro h; exact ⟨_, (hqerr x).1 h⟩
    · rintro ⟨e, he⟩
      apply (hqerr x).2
      have he' : q x = .error e := he
      simp only [q] at he' ⊢
      cases h : asObjective f d x with
      | error e0 => rfl
      | ok l => rw [h] at he'; cases he'

/-- The hypothesis on empty input holds for the two-dimensional functions and for the
`n`-dimensional ones. -/
example : (∀ x : Mat 0 2 ℝ, ∃ c, beale x = .ok c) ∧ ∀ x : Mat 0 3 ℝ, ∃ c, ackley x = .ok c :=
  ⟨fun x => ⟨_, beale_form.val 0 x fun i => i.elim0⟩,
    fun x => ⟨_, ackley_form.val 0 3 x (by decide) fun i => i.elim0⟩⟩

/-! ## C46 -/

theorem two_squares {a b : ℝ} (h : a ^ 2 + b ^ 2 = 0) : a = 0 ∧ b = 0 := by
  have h1 := sq_nonneg a
  have h2 := sq_nonneg b
  exact ⟨pow_eq_zero_iff (two_ne_zero) |>.1 (by linarith), pow_eq_zero_iff (two_ne_zero) |>.1 (by linarith)⟩

/-- Sphere: minimum 0 exactly at the origin, in every dimension. -/
theorem C46_sphere (d : Nat) : UniqueMin (fun _ _ => sphere) d 0 0 := by
  refine sphere_form.uniqueMin d trivial 0 0 (fun _ => trivial) (by simp) ?_
  intro x _
  have hnn : ∀ j ∈ Finset.univ, 0 ≤ x j ^ 2 := fun j _ => sq_nonneg _
  refine ⟨Finset.sum_nonneg hnn, fun h => ?_⟩
  rw [Finset.sum_eq_zero_iff_of_nonneg hnn] at h
  funext j
  simpa using h j (Finset.mem_univ j)

/-- Rosenbrock: minimum 0 exactly at `(1, …, 1)`, in every dimension from two on. -/
theorem C46_rosenbrock (d : Nat) (hd : 2 ≤ d) : UniqueMin (fun _ _ => rosenbrock) d 1 0 := by
  refine rosenbrock_form.uniqueMin d trivial 1 0 (fun _ => trivial) (by simp) ?_
  intro x _
  have hnn : ∀ j ∈ (Finset.univ : Finset (Fin (d - 1))), 0 ≤
      100 * (x ⟨j.1 + 1, by omega⟩ - x ⟨j.1, by omega⟩ ^ 2) ^ 2 + (1 - x ⟨j.1, by omega⟩) ^ 2 :=
    fun j _ => by positivity
  refine ⟨Finset.sum_nonneg hnn, fun h => ?_⟩
  rw [Finset.sum_eq_zero_iff_of_nonneg hnn] at h
  have key : ∀ j : Fin (d - 1), x ⟨j.1, by omega⟩ = 1 ∧ x ⟨j.1 + 1, by omega⟩ = 1 := by
    intro j
    have hj := h j (Finset.mem_univ j)
    have h1 := sq_nonneg (x ⟨j.1 + 1, by omega⟩ - x ⟨j.1, by omega⟩ ^ 2)
    have h2 := sq_nonneg (1 - x ⟨j.1, by omega⟩)
    have e2 : (1 - x ⟨j.1, by omega⟩) ^ 2 = 0 := by linarith
    have e1 : (x ⟨j.1 + 1, by omega⟩ - x ⟨j.1, by omega⟩ ^ 2) ^ 2 = 0 := by linarith
    have e2' : x ⟨j.1, by omega⟩ = 1 := by
      have := pow_eq_zero_iff (two_ne_zero) |>.1 e2
      linarith
    have e1' := pow_eq_zero_iff (two_ne_zero) |>.1 e1
    rw [e2'] at e1'
    exact ⟨e2', by linarith⟩
  funext j
  by_cases hj : j.1 + 1 < d
  · exact (key ⟨j.1, by omega⟩).1
  · have := (key ⟨j.1 - 1, by omega⟩).2
    have hj' : (⟨j.1 - 1 + 1, by omega⟩ : Fin d) = j := by ext; simp; omega
    rw [hj'] at this
    exact this

/-- Rosenbrock in one dimension is constantly 0. -/
theorem C46_rosenbrock_one (n : Nat) (x : Mat n 1 ℝ) : rosenbrock x = .ok fun _ => 0 := by
  rw [rosenbrock_form.val n 1 x trivial fun _ _ => trivial]
  simp

/-- Booth: minimum 0 exactly at `(1, 3)`. -/
theorem C46_booth : UniqueMin (fun _ _ => booth) 2 ![1, 3] 0 := by
  refine booth_form.uniqueMin 1 3 0 (by norm_num) (by norm_num) (by norm_num) ?_
  intro x y _ _ _ _
  refine ⟨by positivity, fun h => ?_⟩
  obtain ⟨h1, h2⟩ := two_squares h
  exact ⟨by linarith, by linarith⟩

/-- Beale: minimum 0 exactly at `(3, 0.5)`. -/
theorem C46_beale : UniqueMin (fun _ _ => beale) 2 ![3, 0.5] 0 := by
  refine beale_form.uniqueMin 3 0.5 0 (by norm_num) (by norm_num) (by norm_num) ?_
  intro x y _ _ _ _
  refine ⟨by positivity, fun h => ?_⟩
  have h1 := sq_nonneg (1.5 - x + x * y)
  have h2 := sq_nonneg (2.25 - x + x * y ^ 2)
  have h3 := sq_nonneg (2.625 - x + x * y ^ 3)
  have e1 : 1.5 - x + x * y = 0 := pow_eq_zero_iff (two_ne_zero) |>.1 (by linarith)
  have e2 : 2.25 - x + x * y ^ 2 = 0 := pow_eq_zero_iff (two_ne_zero) |>.1 (by linarith)
  have a1 : x * (1 - y) = 1.5 := by linarith
  have a2 : x * (1 - y) * (1 + y) = 2.25 := by linarith
  rw [a1] at a2
  have hy : y = 0.5 := by linarith
  subst hy
  exact ⟨by linarith, rfl⟩

/-- Himmelblau: the value is never negative, and 0 exactly where `x² + y = 11` and
`x + y² = 7`; `(3, 2)` is such a point. -/
theorem C46_himmelblau :
    himmelblau (fun _ : Fin 1 => ![3, 2]) = .ok (fun _ => 0) ∧
    ∀ n (x : Mat n 2 ℝ) c, himmelblau x = .ok c → ∀ i, 0 ≤ c i ∧
      (c i = 0 ↔ x i 0 ^ 2 + x i 1 = 11 ∧ x i 0 + x i 1 ^ 2 = 7) := by
  constructor
  · have := himmelblau_form.val 1 (fun _ => ![3, 2]) (fun _ j => by fin_cases j <;> norm_num)
    rw [this]
    congr 1
    funext i
    norm_num
  · intro n x c hc i
    obtain ⟨h1, rfl⟩ := himmelblau_form.inBox hc
    refine ⟨by positivity, fun h => ?_, fun h => ?_⟩
    · obtain ⟨a, b⟩ := two_squares h
      exact ⟨by linarith, by linarith⟩
    · have e1 : x i 0 ^ 2 + x i 1 - 11 = 0 := by linarith [h.1]
      have e2 : x i 0 + x i 1 ^ 2 - 7 = 0 := by linarith [h.2]
      dsimp only
      rw [e1, e2]
      norm_num

/-- Himmelblau: within `10⁻⁵` of each of the three other documented points there is an exact global
minimiser. -/
theorem C46_himmelblau_others (p : ℝ × ℝ)
    (hp : p = (-2.805118, 3.131312) ∨ p = (-3.779310, -3.283186) ∨ p = (3.584428, -1.848126)) :
    ∃ a b : ℝ, |a - p.1| ≤ 0.00001 ∧ |b - p.2| ≤ 0.00001 ∧
      himmelblau (fun _ : Fin 1 => ![a, b]) = .ok (fun _ => 0) := by
  -- it is enough to find a sign change of the quartic in `x` and to bound `y = 11 - x²`
  have key : ∀ l u : ℝ, l ≤ u → (l + (11 - l ^ 2) ^ 2 - 7) * (u + (11 - u ^ 2) ^ 2 - 7) ≤ 0 →
      ∃ a, l ≤ a ∧ a ≤ u ∧ a + (11 - a ^ 2) ^ 2 = 7 := by
    intro l u hlu hs
    have hc : ContinuousOn (fun t : ℝ => t + (11 - t ^ 2) ^ 2 - 7) (Set.Icc l u) := by fun_prop
    have h0 : (0 : ℝ) ∈ Set.uIcc (l + (11 - l ^ 2) ^ 2 - 7) (u + (11 - u ^ 2) ^ 2 - 7) := by
      rw [Set.mem_uIcc]
      rcases mul_nonpos_iff.1 hs with h | h
      · exact Or.inr ⟨h.2, h.1⟩
      · exact Or.inl h
    have := intermediate_value_uIcc (a := l) (b := u) (by rw [Set.uIcc_of_le hlu]; exact hc) h0
    obtain ⟨a, ha, hfa⟩ := this
    rw [Set.uIcc_of_le hlu] at ha
    exact ⟨a, ha.1, ha.2, by dsimp only at hfa; linarith⟩
  have fin : ∀ a : ℝ, -5 ≤ a → a ≤ 5 → -5 ≤ 11 - a ^ 2 → 11 - a ^ 2 ≤ 5 →
      a + (11 - a ^ 2) ^ 2 = 7 → himmelblau (fun _ : Fin 1 => ![a, 11 - a ^ 2]) = .ok (fun _ => 0) := by
    intro a h1 h2 h3 h4 h5
    have := himmelblau_form.val 1 (fun _ => ![a, 11 - a ^ 2]) (fun _ j => by
      fin_cases j
      · exact ⟨h1, h2⟩
      · exact ⟨h3, h4⟩)
    rw [this]
    congr 1
    funext i
    have e1 : a ^ 2 + (11 - a ^ 2) - 11 = 0 := by ring
    have e2 : a + (11 - a ^ 2) ^ 2 - 7 = 0 := by linarith
    simp [e2]
  rcases hp with rfl | rfl | rfl
  · obtain ⟨a, h1, h2, h3⟩ := key (-2.8051185) (-2.8051175) (by norm_num) (by norm_num)
    have hsq1 : a ^ 2 ≤ (2.8051185 : ℝ) ^ 2 := by nlinarith
    have hsq2 : (2.8051175 : ℝ) ^ 2 ≤ a ^ 2 := by nlinarith
    norm_num at hsq1 hsq2
    refine ⟨a, 11 - a ^ 2, ?_, ?_, fin a (by linarith) (by linarith) (by linarith) (by linarith) h3⟩
    · rw [abs_le]; constructor <;> dsimp only <;> norm_num at h1 h2 ⊢ <;> linarith
    · rw [abs_le]; constructor <;> dsimp only <;> norm_num at h1 h2 ⊢ <;> linarith
  · obtain ⟨a, h1, h2, h3⟩ := key (-3.7793105) (-3.7793095) (by norm_num) (by norm_num)
    have hsq1 : a ^ 2 ≤ (3.7793105 : ℝ) ^ 2 := by nlinarith
    have hsq2 : (3.7793095 : ℝ) ^ 2 ≤ a ^ 2 := by nlinarith
    norm_num at hsq1 hsq2
    refine ⟨a, 11 - a ^ 2, ?_, ?_, fin a (by linarith) (by linarith) (by linarith) (by linarith) h3⟩
    · rw [abs_le]; constructor <;> dsimp only <;> norm_num at h1 h2 ⊢ <;> linarith
    · rw [abs_le]; constructor <;> dsimp only <;> norm_num at h1 h2 ⊢ <;> linarith
  · obtain ⟨a, h1, h2, h3⟩ := key 3.5844275 3.5844285 (by norm_num) (by norm_num)
    have hsq1 : a ^ 2 ≤ (3.5844285 : ℝ) ^ 2 := by nlinarith
    have hsq2 : (3.5844275 : ℝ) ^ 2 ≤ a ^ 2 := by nlinarith
    norm_num at hsq1 hsq2
    refine ⟨a, 11 - a ^ 2, ?_, ?_, fin a (by linarith) (by linarith) (by linarith) (by linarith) h3⟩
    · rw [abs_le]; constructor <;> dsimp only <;> norm_num at h1 h2 ⊢ <;> linarith
    · rw [abs_le]; constructor <;> dsimp only <;> norm_num at h1 h2 ⊢ <;> linarith

/-- Matyas: minimum 0 exactly at the origin. -/
theorem C46_matyas : UniqueMin (fun _ _ => matyas) 2 ![0, 0] 0 := by
  refine matyas_form.uniqueMin 0 0 0 (by norm_num) (by norm_num) (by norm_num) ?_
  intro x y _ _ _ _
  have e : 0.26 * (x ^ 2 + y ^ 2) - 0.48 * x * y = 0.24 * (x - y) ^ 2 + 0.02 * (x ^ 2 + y ^ 2) := by
    ring
  rw [e]
  refine ⟨by positivity, fun h => ?_⟩
  have h1 := sq_nonneg (x - y)
  have h2 := sq_nonneg x
  have h3 := sq_nonneg y
  exact two_squares (by linarith)

/-- Goldstein-Price: minimum 3 exactly at `(0, -1)`. -/
theorem C46_goldstein : UniqueMin (fun _ _ => goldstein) 2 ![0, -1] 3 := by
  refine goldstein_form.uniqueMin 0 (-1) 3 (by norm_num) (by norm_num) (by norm_num) ?_
  intro x y _ _ _ _
  have eA : 1 + (x + y + 1) ^ 2 * (19 - 14 * x + 3 * x ^ 2 - 14 * y + 6 * x * y + 3 * y ^ 2) =
      1 + (x + y + 1) ^ 2 * (3 * (x + y - 7 / 3) ^ 2 + 8 / 3) := by ring
  have eB : 30 + (2 * x - 3 * y) ^ 2 * (18 - 32 * x + 12 * x ^ 2 + 48 * y - 36 * x * y + 27 * y ^ 2) =
      3 + (2 * x - 3 * y - 3) ^ 2 * (3 * (2 * x - 3 * y + 1 / 3) ^ 2 + 8 / 3) := by ring
  rw [eA, eB]
  have hP : 0 ≤ (x + y + 1) ^ 2 * (3 * (x + y - 7 / 3) ^ 2 + 8 / 3) := by positivity
  have hQ : 0 ≤ (2 * x - 3 * y - 3) ^ 2 * (3 * (2 * x - 3 * y + 1 / 3) ^ 2 + 8 / 3) := by positivity
  generalize hPe : (x + y + 1) ^ 2 * (3 * (x + y - 7 / 3) ^ 2 + 8 / 3) = P at hP
  generalize hQe : (2 * x - 3 * y - 3) ^ 2 * (3 * (2 * x - 3 * y + 1 / 3) ^ 2 + 8 / 3) = Q at hQ
  have hPQ := mul_nonneg hP hQ
  have e : (1 + P) * (3 + Q) = 3 + Q + 3 * P + P * Q := by ring
  rw [e]
  refine ⟨by linarith, fun h => ?_⟩
  have hP0 : P = 0 := by linarith
  have hQ0 : Q = 0 := by linarith
  rw [hP0] at hPe
  rw [hQ0] at hQe
  have h1 : x + y + 1 = 0 := by
    rcases mul_eq_zero.1 hPe with h | h
    · exact pow_eq_zero_iff (two_ne_zero) |>.1 h
    · nlinarith [sq_nonneg (x + y - 7 / 3)]
  have h2 : 2 * x - 3 * y - 3 = 0 := by
    rcases mul_eq_zero.1 hQe with h | h
    · exact pow_eq_zero_iff (two_ne_zero) |>.1 h
    · nlinarith [sq_nonneg (2 * x - 3 * y + 1 / 3)]
  exact ⟨by linarith, by linarith⟩

/-- Three-hump camel: minimum 0 exactly at the origin. -/
theorem C46_threehump : UniqueMin (fun _ _ => threehump) 2 ![0, 0] 0 := by
  refine threehump_form.uniqueMin 0 0 0 (by norm_num) (by norm_num) (by norm_num) ?_
  intro x y _ _ _ _
  have e : 2 * x ^ 2 - 1.05 * x ^ 4 + x ^ 6 / 6 + x * y + y ^ 2 =
      (y + x / 2) ^ 2 + x ^ 2 * ((x ^ 2 - 3.15) ^ 2 / 6 + 0.09625) := by ring
  rw [e]
  refine ⟨by positivity, fun h => ?_⟩
  have h1 := sq_nonneg (y + x / 2)
  have h2 : 0 ≤ x ^ 2 * ((x ^ 2 - 3.15) ^ 2 / 6 + 0.09625) := by positivity
  have e1 : y + x / 2 = 0 := pow_eq_zero_iff (two_ne_zero) |>.1 (by linarith)
  have e2 : x ^ 2 * ((x ^ 2 - 3.15) ^ 2 / 6 + 0.09625) = 0 := by linarith
  have hx : x = 0 := by
    rcases mul_eq_zero.1 e2 with h | h
    · exact pow_eq_zero_iff (two_ne_zero) |>.1 h
    · nlinarith [sq_nonneg (x ^ 2 - 3.15)]
  subst hx
  exact ⟨rfl, by linarith⟩

/-- Bukin N. 6: minimum 0 exactly at `(-10, 1)`. -/
theorem C46_bukin6 : UniqueMin (fun _ _ => bukin6) 2 ![-10, 1] 0 := by
  refine bukin6_form.uniqueMin (-10) 1 0 (by norm_num) (by norm_num) (by norm_num) ?_
  intro x y _ _ _ _
  have h1 := sqrt_nonneg |y - 0.01 * x ^ 2|
  have h2 := abs_nonneg (x + 10)
  refine ⟨by positivity, fun h => ?_⟩
  have e1 : √|y - 0.01 * x ^ 2| = 0 := by linarith
  have e2 : |x + 10| = 0 := by linarith
  rw [sqrt_eq_zero (abs_nonneg _), abs_eq_zero] at e1
  rw [abs_eq_zero] at e2
  have hx : x = -10 := by linarith
  subst hx
  exact ⟨rfl, by norm_num at e1; linarith⟩

/-- Rastrigin: minimum 0 exactly at the origin, in every dimension. -/
theorem C46_rastrigin (d : Nat) : UniqueMin (fun _ _ => rastrigin) d 0 0 := by
  have e : ∀ x : Vec d ℝ, 10.0 * (d : ℝ) + ∑ j, (x j ^ 2 - 10.0 * cos (2.0 * π * x j)) =
      ∑ j, (x j ^ 2 + 10 * (1 - cos (2.0 * π * x j))) := by
    intro x
    have : (10.0 * d : ℝ) = ∑ _j : Fin d, (10 : ℝ) := by
      simp; norm_num; ring
    rw [this, ← Finset.sum_add_distrib]
    refine Finset.sum_congr rfl fun j _ => ?_
    norm_num
    ring
  refine rastrigin_form.uniqueMin d trivial 0 0 (fun _ => by norm_num) (by rw [e]; simp) ?_
  intro x _
  rw [e]
  have hnn : ∀ j ∈ (Finset.univ : Finset (Fin d)), 0 ≤ x j ^ 2 + 10 * (1 - cos (2.0 * π * x j)) := by
    intro j _
    have := cos_le_one (2.0 * π * x j)
    have := sq_nonneg (x j)
    linarith
  refine ⟨Finset.sum_nonneg hnn, fun h => ?_⟩
  rw [Finset.sum_eq_zero_iff_of_nonneg hnn] at h
  funext j
  have hj := h j (Finset.mem_univ j)
  have h1 := cos_le_one (2.0 * π * x j)
  have h2 := sq_nonneg (x j)
  exact pow_eq_zero_iff (two_ne_zero) |>.1 (by linarith)

/-- Ackley: minimum 0 exactly at the origin, in every positive dimension. -/
theorem C46_ackley (d : Nat) (hd : 0 < d) : UniqueMin (fun _ _ => ackley) d 0 0 := by
  have hd' : (0 : ℝ) < d := by exact_mod_cast hd
  refine ackley_form.uniqueMin d hd.ne' 0 0 (fun _ => by norm_num) ?_ ?_
  · simp [hd'.ne']
    norm_num
    ring
  · intro x _
    have c1 : (20.0 : ℝ) = 20 := by norm_num
    rw [c1]
    have hs : 0 ≤ ∑ j, x j ^ 2 := Finset.sum_nonneg fun j _ => sq_nonneg _
    have hcos : ∑ j, cos (2 * π * x j) ≤ d := by
      calc ∑ j, cos (2 * π * x j) ≤ ∑ _j : Fin d, (1 : ℝ) :=
            Finset.sum_le_sum fun j _ => cos_le_one _
        _ = d := by simp
    have h1 : exp (-0.2 * √(1 / d * ∑ j, x j ^ 2)) ≤ 1 := by
      rw [exp_le_one_iff]
      have := sqrt_nonneg (1 / d * ∑ j, x j ^ 2)
      linarith
    have h2 : exp (1 / d * ∑ j, cos (2 * π * x j)) ≤ exp 1 := by
      rw [exp_le_exp]
      rw [one_div, inv_mul_le_iff₀ hd', mul_one]
      exact hcos
    refine ⟨by linarith, fun h => ?_⟩
    have e1 : exp (-0.2 * √(1 / d * ∑ j, x j ^ 2)) = 1 := by
      linarith
    rw [exp_eq_one_iff] at e1
    have e2 : √(1 / d * ∑ j, x j ^ 2) = 0 := by linarith
    rw [sqrt_eq_zero (by positivity)] at e2
    have e3 : ∑ j, x j ^ 2 = 0 := by
      rcases mul_eq_zero.1 e2 with h | h
      · exact absurd h (by positivity)
      · exact h
    rw [Finset.sum_eq_zero_iff_of_nonneg fun j _ => sq_nonneg _] at e3
    funext j
    simpa using e3 j (Finset.mem_univ j)

/-- Easom: minimum -1 exactly at `(π, π)`. -/
theorem C46_easom : UniqueMin (fun _ _ => easom) 2 ![π, π] (-1) := by
  have hπ0 := pi_pos
  have hπ4 := pi_le_four
  refine easom_form.uniqueMin π π (-1) ⟨by linarith, by linarith⟩
    ⟨by linarith, by linarith⟩ (by simp) ?_
  intro x y _ _ _ _
  have hexp : exp (-1 * ((x - π) ^ 2 + (y - π) ^ 2)) ≤ 1 := by
    rw [exp_le_one_iff]
    have := sq_nonneg (x - π)
    have := sq_nonneg (y - π)
    linarith
  have hpos := exp_pos (-1 * ((x - π) ^ 2 + (y - π) ^ 2))
  generalize hE : exp (-1 * ((x - π) ^ 2 + (y - π) ^ 2)) = E at hexp hpos
  have hcc : cos x * cos y ≤ 1 := by
    have h1 := abs_cos_le_one x
    have h2 := abs_cos_le_one y
    have : |cos x * cos y| ≤ 1 := by
      rw [abs_mul]
      exact mul_le_one₀ h1 (abs_nonneg _) h2
    exact le_trans (le_abs_self _) this
  have hle : cos x * cos y * E ≤ E := by
    have := mul_le_mul_of_nonneg_right hcc hpos.le
    linarith
  refine ⟨by linarith, fun h => ?_⟩
  have hE1 : E = 1 := by linarith
  rw [hE1, exp_eq_one_iff] at hE
  have := two_squares (a := x - π) (b := y - π) (by linarith)
  exact ⟨by linarith [this.1], by linarith [this.2]⟩

/-- Schaffer N. 2: minimum 0 exactly at the origin. -/
theorem C46_schaffer2 : UniqueMin (fun _ _ => schaffer2) 2 ![0, 0] 0 := by
  refine schaffer2_form.uniqueMin 0 0 0 (by norm_num) (by norm_num) (by norm_num) ?_
  intro x y _ _ _ _
  have hD : 1 ≤ (1 + 0.001 * (x ^ 2 + y ^ 2)) ^ 2 := by
    have : (1 : ℝ) ≤ 1 + 0.001 * (x ^ 2 + y ^ 2) := by
      have : 0 ≤ 0.001 * (x ^ 2 + y ^ 2) := by positivity
      linarith
    exact one_le_pow₀ this
  have hs := sq_nonneg (sin (x ^ 2 - y ^ 2))
  generalize hDe : (1 + 0.001 * (x ^ 2 + y ^ 2)) ^ 2 = D at hD
  have hD0 : 0 < D := by linarith
  have e : 0.5 + (sin (x ^ 2 - y ^ 2) ^ 2 - 0.5) / D =
      (0.5 * (D - 1) + sin (x ^ 2 - y ^ 2) ^ 2) / D := by
    field_simp
    ring
  rw [e]
  refine ⟨div_nonneg (by linarith) hD0.le, fun h => ?_⟩
  rw [div_eq_zero_iff] at h
  rcases h with h | h
  · have hD1 : D = 1 := by linarith
    rw [hD1] at hDe
    have hq : 0 ≤ x ^ 2 + y ^ 2 := by positivity
    exact two_squares (by nlinarith)
  · exact absurd h hD0.ne'

/-- Levi: minimum 0 exactly at `(1, 1)`. -/
theorem C46_levi : UniqueMin (fun _ _ => levi) 2 ![1, 1] 0 := by
  refine levi_form.uniqueMin 1 1 0 (by norm_num) (by norm_num) (by simp) ?_
  intro x y _ _ _ _
  refine ⟨by positivity, fun h => ?_⟩
  have h1 := sq_nonneg (sin (π * (1 + (x - 1) / 4)))
  have h2 : 0 ≤ (x - 1) ^ 2 * (10 * sin (π * (1 + (x - 1) / 4) + 1) ^ 2) := by positivity
  have h3 : 0 ≤ (1 + (y - 1) / 4 - 1) ^ 2 * sin (2 * π * (1 + (y - 1) / 4)) ^ 2 := by positivity
  have h4 := sq_nonneg (x - 1)
  have h5 := sq_nonneg (1 + (y - 1) / 4 - 1)
  rw [mul_add ((x - 1) ^ 2), mul_add ((1 + (y - 1) / 4 - 1) ^ 2), mul_one, mul_one] at h
  have := two_squares (a := x - 1) (b := 1 + (y - 1) / 4 - 1) (by linarith)
  exact ⟨by linarith [this.1], by linarith [this.2]⟩

end PySwarms.Bench
