import Verif.Props.Particles
import Verif.Props.Drift
import Verif.Props.FixedParam
import Verif.Props.WarmStart
import Verif.Props.Binary
import Mathlib.Data.Set.Card
import Mathlib.Order.Interval.Set.Infinite
import Mathlib.Data.Fintype.Pi

/-!
# A run sees the objective only where it evaluates it (C132)
-/

set_option linter.unusedSectionVars false

namespace PySwarms

variable {n d : Nat} {K : Type} [Field K] [LinearOrder K] [IsStrictOrderedRing K] [Transc K]
  [FloorRing K]

/-- The evaluations made by a call: what it adds to those made before. -/
def newEvals (cfg : Config n d K) (f : Vec d K → XR K) (iters : Nat) (nproc : Option Nat)
    (env : Nat → Draw n d K) (s : Opt n d K) : List (Mat n d K × Costs n K) :=
  (optimize cfg (costOf f) iters nproc env s).1.evals.drop s.evals.length

theorem iterate_evals_prefix (cfg : Config n d K) (ev : Mat n d K → Except Err (Costs n K))
    (r : Draw n d K) (iters i : Nat) (q : List Bool) (s : Opt n d K) :
    s.evals <+: (iterate cfg ev r iters i q s).1.evals := by
  cases h : ev s.swarm.position with
  | error e =>
    unfold iterate
    rw [h]
  | ok c =>
    rw [iterate_evals_eq h]
    exact List.prefix_append _ _

theorem loop_evals_prefix (cfg : Config n d K) (ev : Nat → Mat n d K → Except Err (Costs n K))
    (env : Nat → Draw n d K) (iters m i : Nat) (q : List Bool) (s : Opt n d K) :
    s.evals <+: (loop cfg ev env iters m i q s).1.evals :=
  loop_inv cfg ev env iters (fun t => s.evals <+: t.evals)
    (fun i q t ht => ht.trans (iterate_evals_prefix cfg (ev i) (env i) iters i q t)) m i q s
    (List.prefix_refl _)

theorem loop_black_box (cfg : Config n d K) (f g : Vec d K → XR K) (env : Nat → Draw n d K)
    (iters m i : Nat) (q : List Bool) (s : Opt n d K)
    (h : ∀ x ∈ (loop cfg (costOf f) env iters m i q s).1.evals.drop s.evals.length,
      ∀ a, g (x.1 a) = f (x.1 a)) :
    loop cfg (costOf g) env iters m i q s = loop cfg (costOf f) env iters m i q s := by
  induction m generalizing i q s with
  | zero => rfl
  | succ m ih =>
    have he : (iterate cfg (costOf f i) (env i) iters i q s).1.evals =
        s.evals ++ [(s.swarm.position, fun a => f (s.swarm.position a))] :=
      iterate_evals_eq (c := fun a => f (s.swarm.position a)) rfl
    have hp : (iterate cfg (costOf f i) (env i) iters i q s).1.evals <+:
        (loop cfg (costOf f) env iters (m + 1) i q s).1.evals := by
      rw [loop]
      generalize iterate cfg (costOf f i) (env i) iters i q s = o
      obtain ⟨s1, e | u⟩ := o
      · exact List.prefix_refl _
      · cases u
        · exact List.prefix_refl _
        · exact loop_evals_prefix _ _ _ _ _ _ _ _
    have hit : iterate cfg (costOf g i) (env i) iters i q s =
        iterate cfg (costOf f i) (env i) iters i q s := by
      have : costOf g i s.swarm.position = costOf f i s.swarm.position := by
        unfold costOf
        congr 1
        funext a
        obtain ⟨E, hE⟩ := hp
        refine h (s.swarm.position, fun a => f (s.swarm.position a)) ?_ a
        rw [← hE, he, List.append_assoc, List.drop_left]
        simp
      unfold iterate
      rw [this]
    have hd : ∀ x ∈ (loop cfg (costOf f) env iters (m + 1) i q s).1.evals.drop
        (iterate cfg (costOf f i) (env i) iters i q s).1.evals.length,
        ∀ a, g (x.1 a) = f (x.1 a) := by
      intro x hx
      refine h x ?_
      rw [he, List.length_append, ← List.drop_drop] at hx
      exact List.mem_of_mem_drop hx
    rw [loop, loop, hit]
    rw [loop] at hd
    revert hd
    generalize iterate cfg (costOf f i) (env i) iters i q s = o
    obtain ⟨s1, e | u⟩ := o
    · intro _; rfl
    · cases u with
      | stop => intro _; rfl
      | «continue» q' => exact fun hd => ih (i + 1) q' s1 hd

/-- **C132** (black box).  Two objectives that agree at the positions the call evaluates give the same
call: same result or exception, same optimizer afterwards, hence also the same later calls. -/
theorem C132_black_box (cfg : Config n d K) (f g : Vec d K → XR K) (iters : Nat)
    (nproc : Option Nat) (env : Nat → Draw n d K) (s : Opt n d K)
    (h : ∀ x ∈ newEvals cfg f iters nproc env s, ∀ i, g (x.1 i) = f (x.1 i)) :
    optimize cfg (costOf g) iters nproc env s = optimize cfg (costOf f) iters nproc env s := by
  by_cases hp : nproc = some 0
  · unfold optimize
    rw [if_pos hp, if_pos hp]
  · have hl := loop_black_box cfg f g env iters iters 0 [] (startState cfg nproc s) (by
      intro x hx
      refine h x ?_
      unfold newEvals
      rcases optimize_evals cfg (costOf f) iters nproc env s with he | he
      · have hc := optimize_cases cfg (costOf f) iters nproc env s
        generalize (optimize cfg (costOf f) iters nproc env s).1 = s' at hc he ⊢
        generalize (optimize cfg (costOf f) iters nproc env s).2 = o at hc
        cases hc with
        | badPool h => exact absurd h hp
        | loopError s1 e _ hl => rw [hl] at hx; exact hx
        | finishError s1 e _ hl _ => rw [hl] at hx; exact hx
        | done s1 r _ hl _ => rw [hl] at hx; exact hx
      · rw [he]; exact hx)
    unfold optimize
    unfold startState at hl
    dsimp only at hl ⊢
    rw [hl]

/-- **C132** (no certificate).  Whatever a call returns: among any set of positions with more elements
than the call has evaluated there is one where the value of the objective makes no difference at all –
with any other value there, also one below the returned cost, the call is the same. -/
theorem C132_unseen (cfg : Config n d K) (f : Vec d K → XR K) (iters : Nat) (nproc : Option Nat)
    (env : Nat → Draw n d K) (s : Opt n d K) (S : Set (Vec d K))
    (hS : ((n * iters : Nat) : ℕ∞) < S.encard) :
    ∃ p ∈ S, ∀ g : Vec d K → XR K, (∀ x, x ≠ p → g x = f x) →
      optimize cfg (costOf g) iters nproc env s = optimize cfg (costOf f) iters nproc env s := by
  classical
  have hlen : (newEvals cfg f iters nproc env s).length ≤ iters := by
    unfold newEvals
    rw [List.length_drop]
    have h1 := loop_evals_length cfg (costOf f) env iters iters 0 [] (startState cfg nproc s)
    have h2 : (startState cfg nproc s).evals = s.evals := rfl
    rw [h2] at h1
    rcases optimize_evals cfg (costOf f) iters nproc env s with he | he <;> rw [he] <;> omega
  let L : List (Vec d K) :=
    (newEvals cfg f iters nproc env s).flatMap fun x => List.ofFn fun i => x.1 i
  have hL : L.length ≤ n * iters := by
    have : L.length = n * (newEvals cfg f iters nproc env s).length := by
      simp [L, List.length_flatMap, Nat.mul_comm]
    rw [this]
    exact Nat.mul_le_mul_left n hlen
  have hne : ¬ S ⊆ (↑L.toFinset : Set (Vec d K)) := by
    intro hsub
    have h1 := Set.encard_le_encard hsub
    rw [Set.encard_coe_eq_coe_finsetCard] at h1
    have h2 : ((L.toFinset.card : Nat) : ℕ∞) ≤ ((n * iters : Nat) : ℕ∞) :=
      Nat.cast_le.2 ((List.toFinset_card_le L).trans hL)
    exact absurd hS (not_lt.2 (h1.trans h2))
  obtain ⟨p, hp, hpL⟩ := Set.not_subset.1 hne
  refine ⟨p, hp, fun g hg => C132_black_box cfg f g iters nproc env s fun x hx i => hg _ ?_⟩
  rintro rfl
  refine hpL ?_
  simp only [L, List.coe_toFinset, Set.mem_ofPred_eq, List.mem_flatMap, List.mem_ofFn]
  exact ⟨x, hx, i, rfl⟩

theorem box_infinite (b : Bounds d K) (hb : ∀ j, b.1 j ≤ b.2 j) (j : Fin d) (hj : b.1 j < b.2 j) :
    Set.Infinite {p : Vec d K | ∀ j, b.1 j ≤ p j ∧ p j ≤ b.2 j} := by
  have h := Set.Icc_infinite hj
  refine Set.infinite_of_injOn_mapsTo (f := fun t => Function.update b.1 j t) ?_ ?_ h
  · intro x _ y _ hxy
    have := congrFun hxy j
    simpa using this
  · intro t ht k
    rcases eq_or_ne k j with rfl | hk
    · simpa using ht
    · simp [Function.update_of_ne hk, hb k]

/-- **C132** (continuous search).  However many particles and iterations: some position inside the
bounds could have any cost, also one below the returned cost, and nobody would notice. -/
theorem C132_bounded (cfg : Config n d K) (b : Bounds d K) (hb : ∀ j, b.1 j ≤ b.2 j) (j : Fin d)
    (hj : b.1 j < b.2 j) (f : Vec d K → XR K) (iters : Nat) (nproc : Option Nat)
    (env : Nat → Draw n d K) (s : Opt n d K) :
    ∃ p : Vec d K, (∀ j, b.1 j ≤ p j ∧ p j ≤ b.2 j) ∧
      ∀ g : Vec d K → XR K, (∀ x, x ≠ p → g x = f x) →
        optimize cfg (costOf g) iters nproc env s = optimize cfg (costOf f) iters nproc env s :=
  C132_unseen cfg f iters nproc env s {p : Vec d K | ∀ j, b.1 j ≤ p j ∧ p j ≤ b.2 j} (by
    rw [(box_infinite b hb j hj).encard_eq]
    exact ENat.natCast_lt_top _)

theorem bits_encard : (Set.encard {p : Vec d K | ∀ j, p j = 0 ∨ p j = 1}) = ((2 ^ d : Nat) : ℕ∞) := by
  have h : {p : Vec d K | ∀ j, p j = 0 ∨ p j = 1} =
      Set.range fun (v : Fin d → Bool) => fun j => if v j then (1 : K) else 0 := by
    ext p
    constructor
    · intro hp
      refine ⟨fun j => decide (p j = 1), ?_⟩
      funext j
      rcases hp j with h | h <;> simp [h]
    · rintro ⟨v, rfl⟩ j
      dsimp only
      split <;> simp
  have hi : Function.Injective fun (v : Fin d → Bool) => fun j => if v j then (1 : K) else 0 := by
    intro v w hvw
    funext j
    have := congrFun hvw j
    cases hv : v j <;> cases hw : w j <;> simp_all
  rw [h, ← Set.image_univ, hi.encard_image, Set.encard_univ, ENat.card_eq_coe_fintype_card]
  simp

/-- **C132** (BinaryPSO).  With fewer than `2^d` evaluations (`n_particles * iters`) some bit string
has not been tried, and its cost makes no difference. -/
theorem C132_bits (cfg : Config n d K) (f : Vec d K → XR K) (iters : Nat) (hn : n * iters < 2 ^ d)
    (nproc : Option Nat) (env : Nat → Draw n d K) (s : Opt n d K) :
    ∃ p : Vec d K, (∀ j, p j = 0 ∨ p j = 1) ∧
      ∀ g : Vec d K → XR K, (∀ x, x ≠ p → g x = f x) →
        optimize cfg (costOf g) iters nproc env s = optimize cfg (costOf f) iters nproc env s :=
  C132_unseen cfg f iters nproc env s {p : Vec d K | ∀ j, p j = 0 ∨ p j = 1} (by
    rw [bits_encard]
    exact Nat.cast_lt.2 hn)

/-- **C132** (the result can be arbitrarily wrong).  For every objective and every returned cost that
is finite there is an objective for which the same call returns the same answer although it takes, at a
position inside the bounds, a value lower by any amount. -/
theorem C132_arbitrarily_wrong (cfg : Config n d K) (b : Bounds d K) (hb : ∀ j, b.1 j ≤ b.2 j)
    (j : Fin d) (hj : b.1 j < b.2 j) (f : Vec d K → XR K) (iters : Nat) (nproc : Option Nat)
    (env : Nat → Draw n d K) (s s' : Opt n d K) (c : K) (x : Vec d K)
    (h : optimize cfg (costOf f) iters nproc env s = (s', .ok (.fin c, x))) (gap : K) :
    ∃ (g : Vec d K → XR K) (p : Vec d K), (∀ j, b.1 j ≤ p j ∧ p j ≤ b.2 j) ∧
      g p = .fin (c - gap) ∧
      optimize cfg (costOf g) iters nproc env s = (s', .ok (.fin c, x)) := by
  classical
  obtain ⟨p, hp, hg⟩ := C132_bounded cfg b hb j hj f iters nproc env s
  refine ⟨Function.update f p (.fin (c - gap)), p, hp, by simp, ?_⟩
  rw [hg _ fun x hx => Function.update_of_ne hx _ _, h]

/-- The square of the distance from the origin, as the cost of a position. -/
def Ex.distance (d : Nat) : Vec d ℚ → XR ℚ := fun x => .fin (∑ j, x j * x j)

/-- Non-vacuity: a call that evaluates three positions per particle and returns a finite cost; the
objective that is a thousand lower at (7, 7) agrees with the distance wherever the call looks. -/
example : (match construct (Ex.gcfg 2 2) (Ex.init 2 2) (Ex.init 2 2) with
    | .ok s => decide (
        (newEvals (Ex.gcfg 2 2) (Ex.distance 2) 3 none (fun _ => Ex.draw 2 2) s).length = 3 ∧
        (∀ x ∈ newEvals (Ex.gcfg 2 2) (Ex.distance 2) 3 none (fun _ => Ex.draw 2 2) s, ∀ i,
          x.1 i ≠ (fun _ => 7)) ∧
        (match (optimize (Ex.gcfg 2 2) (costOf (Ex.distance 2)) 3 none
            (fun _ => Ex.draw 2 2) s).2 with
          | .ok (.fin _, _) => true
          | _ => false) = true)
    | .error _ => false) = true := by decide +kernel

/-- Non-vacuity of the budget: ten particles and ten iterations do not suffice for seven bits. -/
example : 10 * 10 < 2 ^ 7 := by decide

end PySwarms
