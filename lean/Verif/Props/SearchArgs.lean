import Verif.Model.SearchArgs
import Verif.Props.Search
import Verif.Props.Binary

/-!
# What a search can be used with (C91)
-/

set_option linter.unusedSectionVars false

namespace PySwarms

variable {n d : Nat} {K : Type} [Field K] [LinearOrder K] [IsStrictOrderedRing K] [Transc K]
  [FloorRing K]

/-! ### Specification -/

/-- The lower and upper bounds together contain at most two different numbers. -/
def TwoNumbers (b : Bounds d K) : Prop :=
  ∃ u v, ∀ j, (b.1 j = u ∨ b.1 j = v) ∧ (b.2 j = u ∨ b.2 j = v)

/-- The documented call of the optimizer: bounds as bounds, clamp as clamp, everything else default. -/
def documentedConfig (kind : Kind) (bounds : Option (Bounds d K)) (clamp : Option (Clamp d K))
    (o : Opts K × TopArgs) : Config n d K :=
  { kind := kind, options := o.1, args := o.2, bounds := bounds, clamp := clamp, center := fun _ => 1 }

/-! ### Constructors -/

/-- C91: `GridSearch(...)` raises `TypeError` exactly for an `optimizer` without `optimize`;
`RandomSearch(...)` also for an `n_selection_iters` that is no integer.  (An optimizer object instead
of a class is accepted.) -/
theorem C91_constructors (t : Target) (m : PyArg K) :
    (gridSearchInit t = if t = .noOptimize then .error .typeError else .ok ()) ∧
    (randomSearchInit t m = .ok () ↔ t ≠ .noOptimize ∧ ∃ z, m = .int z) ∧
    (randomSearchInit t m ≠ .ok () → randomSearchInit t m = .error .typeError) := by
  refine ⟨by cases t <;> rfl, ?_, ?_⟩ <;> cases t <;> cases m <;>
    simp [randomSearchInit, randomAssertions, searchAssertions]

/-! ### Searches that cannot work -/

theorem construct_default_ok (kind : Kind) (hk : kind.needsKP = false) (bounds : Option (Bounds d K))
    (clamp : Option (Clamp d K)) (o : Opts K × TopArgs) (r1 r2 : InitDraw n d K) :
    ∃ s, construct (documentedConfig kind bounds clamp o) r1 r2 = .ok s := by
  have hr : ∀ r, ∃ sw, resetSwarm (n := n) (documentedConfig kind bounds clamp o) r = .ok sw := by
    intro r
    unfold resetSwarm createSwarm
    cases kind <;> cases bounds <;> exact ⟨_, rfl⟩
  obtain ⟨s1, h1⟩ := hr r1
  obtain ⟨s2, h2⟩ := hr r2
  refine ⟨{ swarm := s2 }, ?_⟩
  unfold construct
  rw [h1, h2]
  simp [documentedConfig, hk, checkFtolIter]

/-- C91: with `GeneralOptimizerPSO` every combination raises `TypeError`, because the bounds arrive
as the topology; the objective is never called. -/
theorem C91_general (bounds : Option (Bounds d K)) (clamp : Option (Clamp d K)) (iters : Nat)
    (ev : Nat → Mat n d K → Except Err (Costs n K)) (o : Opts K × TopArgs)
    (r1 r2 : InitDraw n d K) (env : Nat → Draw n d K) :
    scoreTarget .general bounds clamp ev iters o r1 r2 env = ([], .error .typeError) := by
  obtain ⟨s, hs⟩ := construct_default_ok (n := n) (.general .star) rfl none clamp o r1 r2
  unfold documentedConfig at hs
  unfold scoreTarget callTarget
  dsimp only
  rw [hs]

theorem twoNumbers_iff (b : Bounds d K) : atMostTwoValues (boundsRows b) = true ↔ TwoNumbers b := by
  unfold atMostTwoValues TwoNumbers
  rw [decide_eq_true_iff, show _ ↔ _ from ⟨two_values_of_dedup _, fun ⟨_, _, h⟩ => dedup_of_two_values _ h⟩]
  refine exists_congr fun u => exists_congr fun v => ?_
  constructor
  · intro h j
    refine ⟨h _ (List.mem_flatMap.2 ⟨0, List.mem_finRange _, List.mem_map.2 ⟨j, List.mem_finRange _, ?_⟩⟩),
      h _ (List.mem_flatMap.2 ⟨1, List.mem_finRange _, List.mem_map.2 ⟨j, List.mem_finRange _, ?_⟩⟩)⟩
    · simp [boundsRows]
    · simp [boundsRows]
  · intro h x hx
    obtain ⟨i, -, hx⟩ := List.mem_flatMap.1 hx
    obtain ⟨j, -, rfl⟩ := List.mem_map.1 hx
    unfold boundsRows
    split
    · exact (h j).1
    · exact (h j).2

/-- C91: with `BinaryPSO` and bounds every combination raises, because the bounds arrive as the
initial positions; the objective is never called. -/
theorem C91_binary (b : Bounds d K) (clamp : Option (Clamp d K)) (iters : Nat)
    (ev : Nat → Mat n d K → Except Err (Costs n K)) (o : Opts K × TopArgs)
    (r1 r2 : InitDraw n d K) (env : Nat → Draw n d K) :
    ∃ e, scoreTarget .binary (some b) clamp ev iters o r1 r2 env = ([], .error e) ∧
      (o.2.k = none ∨ o.2.p = none → e = .keyError) ∧
      (o.2.k ≠ none → o.2.p ≠ none → TwoNumbers b → e = .attributeError) ∧
      (o.2.k ≠ none → o.2.p ≠ none → ¬ TwoNumbers b → e = .valueError) := by
  have ht := twoNumbers_iff b
  unfold scoreTarget callTarget
  dsimp only
  obtain ⟨o1, k, p, r⟩ := o
  cases k with
  | none => exact ⟨.keyError, rfl, by simp⟩
  | some k =>
    cases p with
    | none => exact ⟨.keyError, rfl, by simp⟩
    | some p =>
      by_cases h2 : TwoNumbers b
      · rw [ht.2 h2]
        exact ⟨.attributeError, rfl, by simp, fun _ _ _ => rfl, fun _ _ h => absurd h2 h⟩
      · have : atMostTwoValues (boundsRows b) = false := by
          rw [← Bool.not_eq_true]; exact fun h => h2 (ht.1 h)
        rw [this]
        exact ⟨.valueError, rfl, by simp, fun _ _ h => absurd h h2, fun _ _ _ => rfl⟩

/-- C91: with `LocalBestPSO` or `BinaryPSO` a combination without `k` or `p` raises `KeyError`; the
objective is never called. -/
theorem C91_missing (t : Target) (ht : t = .localBest ∨ t = .binary) (bounds : Option (Bounds d K))
    (clamp : Option (Clamp d K)) (iters : Nat) (ev : Nat → Mat n d K → Except Err (Costs n K))
    (o : Opts K × TopArgs) (ho : o.2.k = none ∨ o.2.p = none) (r1 r2 : InitDraw n d K)
    (env : Nat → Draw n d K) :
    scoreTarget t bounds clamp ev iters o r1 r2 env = ([], .error .keyError) := by
  have hko : (o.2.k.isNone || o.2.p.isNone) = true := by
    rcases ho with h | h <;> simp [h]
  unfold scoreTarget callTarget construct
  rcases ht with rfl | rfl
  · simp [Kind.needsKP, hko]
  · cases bounds <;> simp [Kind.needsKP, hko]

/-- C91: a search over at least one combination that raises for each of them raises after scoring
the first. -/
theorem searchTarget_first_error {t : Target} {bounds : Option (Bounds d K)}
    {clamp : Option (Clamp d K)} {ev : Nat → Mat n d K → Except Err (Costs n K)} {iters : Nat}
    {r1 r2 : Nat → InitDraw n d K} {env : Nat → Nat → Draw n d K} {maximum : Bool}
    {o : Opts K × TopArgs} {rest : List (Opts K × TopArgs)} {e : Err}
    (h : (scoreTarget t bounds clamp ev iters o (r1 0) (r2 0) (env 0)).2 = .error e) :
    searchTarget t bounds clamp ev iters r1 r2 env maximum (o :: rest) = ([(0, o)], .error e) := by
  unfold searchTarget search scoreAll
  rw [h]

/-! ### Searches that return -/

theorem search_returns (mk : Opts K × TopArgs → Config n d K)
    (ev : Nat → Mat n d K → Except Err (Costs n K)) (iters : Nat) (r1 r2 : Nat → InitDraw n d K)
    (env : Nat → Nat → Draw n d K) (maximum : Bool) (grid : List (Opts K × TopArgs))
    (log : List (Nat × (Opts K × TopArgs))) (c : XR K) (o : Opts K × TopArgs)
    (h : search (fun k o => generateScore (mk o) ev iters (r1 k) (r2 k) (env k)) maximum grid =
      (log, .ok (c, o))) :
    IsFirstOptimum (fun k o => generateScore (mk o) ev iters (r1 k) (r2 k) (env k)) maximum grid
      c o := by
  have hne : grid ≠ [] := by rintro rfl; cases h
  have hok : ∀ (j : Nat) (hj : j < grid.length),
      ∃ c, generateScore (mk grid[j]) ev iters (r1 j) (r2 j) (env j) = .ok c := by
    by_contra hcon
    push Not at hcon
    obtain ⟨j, hj, hjc⟩ := hcon
    obtain ⟨j', hj', e, -, -, hs⟩ := C43_exception
      (fun k o => generateScore (mk o) ev iters (r1 k) (r2 k) (env k)) maximum grid ⟨j, hj, by
        rcases hg : generateScore (mk grid[j]) ev iters (r1 j) (r2 j) (env j) with e | c
        · exact ⟨e, rfl⟩
        · exact absurd hg (hjc c)⟩
    rw [h] at hs
    cases hs
  obtain ⟨c', o', hs, hopt⟩ := C43_with_optimizer mk ev iters r1 r2 env maximum grid hne hok
  rw [h] at hs
  cases hs
  exact hopt

/-- The score with a class whose fourth parameter is used as intended. -/
theorem scoreTarget_eq (t : Target) (kind : Kind) (bounds : Option (Bounds d K))
    (ht : (t = .globalBest ∧ kind = .globalBest) ∨ (t = .localBest ∧ kind = .localBest false) ∨
        (t = .binary ∧ kind = .binary ∧ bounds = none))
    (clamp : Option (Clamp d K)) (ev : Nat → Mat n d K → Except Err (Costs n K)) (iters : Nat)
    (o : Opts K × TopArgs) (r1 r2 : InitDraw n d K) (env : Nat → Draw n d K) :
    (scoreTarget t bounds clamp ev iters o r1 r2 env).2 =
      generateScore (documentedConfig kind bounds clamp o) ev iters r1 r2 env := by
  have key : ∀ cfg : Config n d K,
      ((match (match construct cfg r1 r2 with
          | .error e => .error e
          | .ok s => .ok (cfg, s) : Except Err (Config n d K × Opt n d K)) with
        | .error e => ([], .error e)
        | .ok (cfg, s) =>
          match optimize cfg ev iters none env s with
          | (s', .error e) => (s'.evals, .error e)
          | (s', .ok (c, _)) => (s'.evals, .ok c) :
            List (Mat n d K × Costs n K) × Except Err (XR K))).2 =
        generateScore cfg ev iters r1 r2 env := by
    intro cfg
    unfold generateScore
    rcases construct cfg r1 r2 with e | s
    · rfl
    · dsimp only
      rcases optimize cfg ev iters none env s with ⟨s', e | ⟨c, p⟩⟩ <;> rfl
  unfold scoreTarget callTarget
  rcases ht with ⟨rfl, rfl⟩ | ⟨rfl, rfl⟩ | ⟨rfl, rfl, rfl⟩
  · exact key _
  · exact key _
  · exact key _

/-- C91: if a search returns, then its optimizer is `GlobalBestPSO`, `LocalBestPSO`, or `BinaryPSO`
without bounds; the returned score belongs to a run of that optimizer, built as documented with the
returned combination, with the bounds as bounds and the clamp as clamp; and the combination is the
first optimal one among the runs of all combinations of the grid. -/
theorem C91_returns (t : Target) (bounds : Option (Bounds d K)) (clamp : Option (Clamp d K))
    (ev : Nat → Mat n d K → Except Err (Costs n K)) (iters : Nat) (r1 r2 : Nat → InitDraw n d K)
    (env : Nat → Nat → Draw n d K) (maximum : Bool) (grid : List (Opts K × TopArgs))
    (log : List (Nat × (Opts K × TopArgs))) (c : XR K) (o : Opts K × TopArgs)
    (h : searchTarget t bounds clamp ev iters r1 r2 env maximum grid = (log, .ok (c, o))) :
    ∃ kind, ((t = .globalBest ∧ kind = .globalBest) ∨ (t = .localBest ∧ kind = .localBest false) ∨
        (t = .binary ∧ kind = .binary ∧ bounds = none)) ∧
      IsFirstOptimum (fun k o => generateScore (documentedConfig kind bounds clamp o) ev iters (r1 k)
        (r2 k) (env k)) maximum grid c o := by
  have hgood : ∀ kind, ((t = .globalBest ∧ kind = .globalBest) ∨
      (t = .localBest ∧ kind = .localBest false) ∨ (t = .binary ∧ kind = .binary ∧ bounds = none)) →
      IsFirstOptimum (fun k o => generateScore (documentedConfig kind bounds clamp o) ev iters (r1 k)
        (r2 k) (env k)) maximum grid c o := by
    intro kind ht
    unfold searchTarget at h
    simp only [scoreTarget_eq t kind bounds ht] at h
    exact search_returns (fun o => documentedConfig kind bounds clamp o) ev iters r1 r2 env maximum
      grid log c o h
  have hbad : (∀ o, ∃ e, (scoreTarget t bounds clamp ev iters o (r1 0) (r2 0) (env 0)).2 = .error e) →
      False := by
    intro hb
    cases grid with
    | nil => cases h
    | cons o' rest =>
      obtain ⟨e, he⟩ := hb o'
      rw [searchTarget_first_error he] at h
      cases h
  cases t with
  | globalBest => exact ⟨_, .inl ⟨rfl, rfl⟩, hgood _ (.inl ⟨rfl, rfl⟩)⟩
  | localBest => exact ⟨_, .inr (.inl ⟨rfl, rfl⟩), hgood _ (.inr (.inl ⟨rfl, rfl⟩))⟩
  | general => exact (hbad fun o => ⟨.typeError, by rw [C91_general]⟩).elim
  | object => exact (hbad fun o => ⟨.typeError, rfl⟩).elim
  | noOptimize => exact (hbad fun o => ⟨.attributeError, rfl⟩).elim
  | binary =>
    cases hbd : bounds with
    | none =>
      subst hbd
      exact ⟨_, .inr (.inr ⟨rfl, rfl, rfl⟩), hgood _ (.inr (.inr ⟨rfl, rfl, rfl⟩))⟩
    | some b =>
      subst hbd
      refine (hbad fun o => ?_).elim
      obtain ⟨e, he, -⟩ := C91_binary b clamp iters ev o (r1 0) (r2 0) (env 0)
      exact ⟨e, by rw [he]⟩

/-- C91: so a search with `GeneralOptimizerPSO`, with an optimizer object, or with `BinaryPSO` and
bounds always raises, over every grid. -/
theorem C91_never (t : Target) (bounds : Option (Bounds d K))
    (ht : t = .general ∨ t = .object ∨ (t = .binary ∧ bounds.isSome)) (clamp : Option (Clamp d K))
    (ev : Nat → Mat n d K → Except Err (Costs n K)) (iters : Nat) (r1 r2 : Nat → InitDraw n d K)
    (env : Nat → Nat → Draw n d K) (maximum : Bool) (grid : List (Opts K × TopArgs)) :
    ∃ log e, searchTarget t bounds clamp ev iters r1 r2 env maximum grid = (log, .error e) ∧
      log.length ≤ 1 := by
  cases grid with
  | nil => exact ⟨[], .valueError, rfl, Nat.zero_le _⟩
  | cons o rest =>
    have : ∃ e, (scoreTarget t bounds clamp ev iters o (r1 0) (r2 0) (env 0)).2 = .error e := by
      rcases ht with rfl | rfl | ⟨rfl, hb⟩
      · exact ⟨.typeError, by rw [C91_general]⟩
      · exact ⟨.typeError, rfl⟩
      · obtain ⟨b, rfl⟩ := Option.isSome_iff_exists.1 hb
        obtain ⟨e, he, -⟩ := C91_binary b clamp iters ev o (r1 0) (r2 0) (env 0)
        exact ⟨e, by rw [he]⟩
    obtain ⟨e, he⟩ := this
    exact ⟨_, e, searchTarget_first_error he, le_refl _⟩

/-! ### Examples -/

namespace Ex

/-- Two combinations. -/
def combosKP : List (Opts ℚ × TopArgs) :=
  [(opts, { k := some 1, p := some 2 }), ([("c1", 1), ("c2", 1), ("w", 1 / 4)], { k := some 2, p := some 2 })]

/-- A search over `combosKP`, two particles in the plane, three iterations. -/
def tryTarget (t : Target) (b : Option (Bounds 2 ℚ)) : Except Err (XR ℚ × (Opts ℚ × TopArgs)) :=
  (searchTarget t b (some (fun _ => 0, fun _ => 1)) (sphere 2 2) 3 (fun _ => init 2 2)
    (fun _ => init 2 2) (fun _ _ => draw 2 2) false combosKP).2

/-- The unit square, and a box with three different sides. -/
def square : Bounds 2 ℚ := (fun _ => 0, fun _ => 1)
def oblong : Bounds 2 ℚ := (fun _ => 0, fun j => 1 + j.val)

/-- Did the search return, or which exception did it raise? -/
def endOf : Except Err (XR ℚ × (Opts ℚ × TopArgs)) → Option Err
  | .error e => some e
  | .ok _ => none

end Ex

example : Ex.endOf (Ex.tryTarget .globalBest (some Ex.oblong)) = none := by decide +kernel
example : Ex.endOf (Ex.tryTarget .localBest (some Ex.square)) = none := by decide +kernel
example : Ex.endOf (Ex.tryTarget .binary none) = none := by decide +kernel
example : Ex.endOf (Ex.tryTarget .binary (some Ex.square)) = some .attributeError := by decide +kernel
example : Ex.endOf (Ex.tryTarget .binary (some Ex.oblong)) = some .valueError := by decide +kernel
example : Ex.endOf (Ex.tryTarget .general none) = some .typeError := by decide +kernel
example : TwoNumbers Ex.square := ⟨0, 1, fun _ => ⟨.inl rfl, .inr rfl⟩⟩
example : randomSearchInit (K := ℚ) .localBest (.float 3) = .error .typeError := rfl

end PySwarms
