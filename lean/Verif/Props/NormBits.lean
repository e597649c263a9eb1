import Verif.Props.Clusters
import Verif.Props.Binary

/-!
# In BinaryPSO the norm does not matter (C126)
-/

set_option linter.unusedSectionVars false

namespace PySwarms

variable {n d : Nat} {K : Type} [Field K] [LinearOrder K] [IsStrictOrderedRing K] [Transc K]
  [FloorRing K]

/-! ## Specification -/

/-- The same options with another norm. -/
def Config.withNorm (cfg : Config n d K) (q : Nat) : Config n d K :=
  { cfg with args := { cfg.args with p := some q } }

/-- The same random numbers, and a k-d tree that answers for every norm what it answered for `p`. -/
def Draw.asNorm (p : Nat) (r : Draw n d K) : Draw n d K :=
  { r with oracle := { r.oracle with knn := fun k _ x => r.oracle.knn k p x } }

/-! ## Proofs -/

theorem minkowski_bits {p : Nat} (hp : p ≠ 0) {x y : Vec d K} (hx : ∀ j, x j = 0 ∨ x j = 1)
    (hy : ∀ j, y j = 0 ∨ y j = 1) : minkowski p x y = minkowski 1 x y := by
  unfold minkowski
  refine Finset.sum_congr rfl fun j _ => ?_
  rcases hx j with h1 | h1 <;> rcases hy j with h2 | h2 <;> rw [h1, h2] <;> simp [hp]

theorem isKnn_bits {p q : Nat} (hp : p ≠ 0) (hq : q ≠ 0) {k : Nat} {x : Mat n d K} (hx : Bits x)
    {nbr : Fin n → List (Fin n)} (h : IsKnn (minkowski p) k x nbr) : IsKnn (minkowski q) k x nbr := by
  have e : ∀ i a, minkowski q (x i) (x a) = minkowski p (x i) (x a) := fun i a =>
    (minkowski_bits hq (hx i) (hx a)).trans (minkowski_bits hp (hx i) (hx a)).symm
  intro i
  obtain ⟨h1, h2, h3, h4⟩ := h i
  refine ⟨h1, h2, h3.imp fun h => ?_, fun a ha b hb => ?_⟩
  · rw [e, e]; exact h
  · rw [e, e]; exact h4 a ha b hb

/-- C126: between bit strings all norms order distances alike, so `p` does not matter in `BinaryPSO`. -/
theorem C126_norm_bits (p q : Nat) (hp : p ≠ 0) (hq : q ≠ 0) (k : Nat) (x : Mat n d K)
    (hx : ∀ i j, x i j = 0 ∨ x i j = 1) (nbr : Fin n → List (Fin n)) :
    IsKnn (minkowski p) k x nbr ↔ IsKnn (minkowski q) k x nbr :=
  ⟨isKnn_bits hp hq hx, isKnn_bits hq hp hx⟩

theorem iterate_norm (cfg : Config n d K) (hk : cfg.kind = .binary) {p q : Nat} (hp : p ≠ 0)
    (hq : q ≠ 0) (hcp : cfg.args.p = some p) (ev : Mat n d K → Except Err (Costs n K))
    (r : Draw n d K) (iters i : Nat) (qu : List Bool) (s : Opt n d K) :
    iterate (cfg.withNorm q) ev (r.asNorm p) iters i qu s = iterate cfg ev r iters i qu s := by
  have hg : ∀ t sw, callGbest (cfg.withNorm q) (r.asNorm p).oracle t sw =
      callGbest cfg r.oracle t sw := by
    intro t sw
    unfold callGbest
    have hk' : (cfg.withNorm q).kind = .binary := hk
    rw [hk, hk']
    dsimp only
    unfold computeGbest
    have e2 : (cfg.withNorm q).args.k = cfg.args.k := rfl
    have e1 : (cfg.withNorm q).args.p = some q := rfl
    rw [e1, e2, hcp]
    dsimp only
    cases cfg.args.k with
    | none => rfl
    | some k =>
      dsimp only
      unfold ringGbest
      have : ringQuery k q (r.asNorm p).oracle sw.position = ringQuery k p r.oracle sw.position := by
        unfold ringQuery
        simp only [hp, hq, or_false]
        rfl
      rw [this]
  have hm : ∀ s, moveSwarm (cfg.withNorm q) (r.asNorm p) iters i s = moveSwarm cfg r iters i s :=
    fun _ => rfl
  unfold iterate
  rw [show (cfg.withNorm q).window = cfg.window from rfl, show (cfg.withNorm q).ftol = cfg.ftol from rfl]
  simp only [hg, hm]

theorem loop_norm (cfg : Config n d K) (hk : cfg.kind = .binary) {p q : Nat} (hp : p ≠ 0)
    (hq : q ≠ 0) (hcp : cfg.args.p = some p) (ev : Nat → Mat n d K → Except Err (Costs n K))
    (env : Nat → Draw n d K) (iters m i : Nat) (qu : List Bool) (s : Opt n d K) :
    loop (cfg.withNorm q) ev (fun t => (env t).asNorm p) iters m i qu s =
      loop cfg ev env iters m i qu s := by
  induction m generalizing i qu s with
  | zero => rfl
  | succ m ih =>
    rw [loop, loop, iterate_norm cfg hk hp hq hcp]
    generalize iterate cfg (ev i) (env i) iters i qu s = o
    obtain ⟨s1, e | u⟩ := o
    · rfl
    · cases u with
      | stop => rfl
      | «continue» q' => exact ih _ _ _

/-- C126: every run of `BinaryPSO` with `p` is one with `q`, with the same random numbers and the same
answers of the k-d tree; and where these were right for `p` they are right for `q`, as all positions are
bit strings. -/
theorem C126_norm_binary (cfg : Config n d K) (hk : cfg.kind = .binary) (p q : Nat) (hp : p ≠ 0)
    (hq : q ≠ 0) (hcp : cfg.args.p = some p) (ev : Nat → Mat n d K → Except Err (Costs n K))
    (env : Nat → Draw n d K) (iters : Nat) (nproc : Option Nat) (s : Opt n d K) :
    optimize (cfg.withNorm q) ev iters nproc (fun t => (env t).asNorm p) s =
      optimize cfg ev iters nproc env s ∧
    ∀ t k (x : Mat n d K), (∀ i j, x i j = 0 ∨ x i j = 1) →
      IsKnn (minkowski p) k x ((env t).oracle.knn k p x) →
      IsKnn (minkowski q) k x (((env t).asNorm p).oracle.knn k q x) := by
  refine ⟨?_, fun t k x hx h => isKnn_bits hp hq hx h⟩
  unfold optimize
  rw [show prepare (cfg.withNorm q) s = prepare cfg s from rfl]
  simp only [loop_norm cfg hk hp hq hcp]

/-- Non-vacuity: three bit strings in three dimensions, with neighbour lists that are right. -/
example : IsKnn (minkowski 2) 2
    (fun (i : Fin 3) (j : Fin 3) => if i = 0 then (0 : ℚ) else if i = 1 ∧ j ≠ 2 then 1 else
      if i = 2 ∧ j = 2 then 1 else 0) (fun i => if i = 0 then [0, 2] else if i = 1 then [1, 0] else [2, 0]) := by
  intro i
  fin_cases i <;> exact ⟨rfl, by decide, by decide +kernel, by decide +kernel⟩

/-- Non-vacuity: `BinaryPSO` with `p` given. -/
example : (Ex.bcfg 3 2 3).kind = .binary ∧ (Ex.bcfg 3 2 3).args.p.isSome = true := by decide

end PySwarms
