import Verif.Model.RealOps
import Verif.Lemmas.Runs
import Verif.Lemmas.Gbest
import Verif.Examples
import Mathlib.Analysis.SpecialFunctions.Exp
import Mathlib.Data.List.Dedup

/-! # C39–C41: BinaryPSO and discrete swarms -/

set_option linter.unusedSectionVars false

namespace PySwarms

variable {n d : Nat} {K : Type} [Field K] [LinearOrder K]

/-- Every entry is 0 or 1. -/
def Bits (x : Mat n d K) : Prop := ∀ i j, x i j = 0 ∨ x i j = 1

/-! ## C41: generators -/

/-- C41: with `binary=True` and no `init_pos` the generated matrix is a 0/1 matrix, namely the drawn
bits. -/
theorem C41_binary (bits : Fin n → Fin d → Bool) (a : ArgsortOracle n d) :
    ∃ p : Mat n d K, generateDiscreteSwarm true none bits a = .ok p ∧ Bits p ∧
      ∀ i j, p i j = 1 ↔ bits i j = true := by
  refine ⟨_, rfl, ?_, ?_⟩
  · intro i j
    cases bits i j <;> simp
  · intro i j
    cases bits i j <;> simp

/-- `a` is an answer of `u.argsort()`: an arrangement of the indices in which `u` is
non-decreasing. -/
def IsArgsort (u : Vec d K) (a : Fin d → Fin d) : Prop :=
  Function.Injective a ∧ ∀ j j', j ≤ j' → u (a j) ≤ u (a j')

/-- C41: with `binary=False` every generated row is a permutation of `0, …, d-1`: each of these
numbers occurs exactly once, and nothing else occurs. -/
theorem C41_permutation [CharZero K] (u : Mat n d K) (bits : Fin n → Fin d → Bool)
    (a : ArgsortOracle n d) (ha : ∀ i, IsArgsort (u i) (a i)) :
    ∃ p : Mat n d K, generateDiscreteSwarm false none bits a = .ok p ∧
      ∀ i, (∀ k : Nat, k < d → ∃ j, p i j = k ∧ ∀ j', p i j' = k → j' = j) ∧
        ∀ j, ∃ k : Nat, k < d ∧ p i j = k := by
  refine ⟨_, rfl, ?_⟩
  intro i
  constructor
  · intro k hk
    obtain ⟨j, hj⟩ := (Finite.injective_iff_surjective.1 (ha i).1) ⟨k, hk⟩
    refine ⟨j, by rw [hj], ?_⟩
    intro j' hj'
    apply (ha i).1
    rw [hj]
    exact Fin.ext (by exact_mod_cast hj')
  · intro j
    exact ⟨a i j, (a i j).2, rfl⟩

theorem two_values_of_dedup (l : List K) (h : l.dedup.length ≤ 2) :
    ∃ a b, ∀ x ∈ l, x = a ∨ x = b := by
  have hm : ∀ x ∈ l, x ∈ l.dedup := fun x hx => List.mem_dedup.2 hx
  rcases hd : l.dedup with _ | ⟨a, _ | ⟨b, _ | ⟨c, t⟩⟩⟩
  · exact ⟨0, 0, fun x hx => by have := hm x hx; rw [hd] at this; cases this⟩
  · exact ⟨a, a, fun x hx => by have := hm x hx; rw [hd] at this; simp at this; exact Or.inl this⟩
  · exact ⟨a, b, fun x hx => by have := hm x hx; rw [hd] at this; simpa using this⟩
  · rw [hd] at h; simp at h

theorem dedup_of_two_values (l : List K) {a b : K} (h : ∀ x ∈ l, x = a ∨ x = b) :
    l.dedup.length ≤ 2 := by
  have hsub : l.dedup ⊆ [a, b] := by
    intro x hx
    simpa using h x (List.mem_dedup.1 hx)
  exact (List.subperm_of_subset l.nodup_dedup hsub).length_le

/-- C41: an `init_pos` is accepted with `binary=True` iff it has at most two distinct values, and is
then used as it is. -/
theorem C41_init_pos (p : Mat n d K) (bits : Fin n → Fin d → Bool) (a : ArgsortOracle n d) :
    ((∃ x y, ∀ i j, p i j = x ∨ p i j = y) →
      generateDiscreteSwarm true (some p) bits a = .ok p) ∧
    ((¬ ∃ x y, ∀ i j, p i j = x ∨ p i j = y) →
      generateDiscreteSwarm true (some p) bits a = .error .valueError) := by
  have hiff : atMostTwoValues p = true ↔ ∃ x y, ∀ i j, p i j = x ∨ p i j = y := by
    unfold atMostTwoValues
    rw [decide_eq_true_iff]
    constructor
    · intro h
      obtain ⟨x, y, h⟩ := two_values_of_dedup _ h
      refine ⟨x, y, fun i j => h _ ?_⟩
      simp only [List.mem_flatMap, List.mem_map, List.mem_finRange, true_and]
      exact ⟨i, j, rfl⟩
    · rintro ⟨x, y, h⟩
      refine dedup_of_two_values (a := x) (b := y) _ ?_
      intro z hz
      simp only [List.mem_flatMap, List.mem_map, List.mem_finRange, true_and] at hz
      obtain ⟨i, j, rfl⟩ := hz
      exact h i j
  constructor
  · intro h
    simp [generateDiscreteSwarm, hiff.2 h]
  · intro h
    have : atMostTwoValues p = false := by
      rw [← Bool.not_eq_true, hiff]; exact h
    simp [generateDiscreteSwarm, this]

/-- C41: the two values need not be 0 and 1. -/
theorem C41_not_bits_witness : ∃ p : Mat 2 1 ℚ,
    generateDiscreteSwarm true (some p) (fun _ _ => true) (fun _ j => j) = .ok p ∧ ¬ Bits p := by
  refine ⟨fun i _ => if i = 0 then 3 else 7, ?_, ?_⟩
  · exact (C41_init_pos _ _ _).1 ⟨3, 7, fun i j => by by_cases h : i = 0 <;> simp [h]⟩
  · intro h
    have := h 0 0
    norm_num at this

/-- Non-vacuity of `IsArgsort`. -/
example : IsArgsort (fun j : Fin 3 => if j = 0 then (1 / 2 : ℚ) else if j = 1 then 3 / 4 else 1 / 4)
    (fun j => if j = 0 then 2 else if j = 1 then 0 else 1) := by
  constructor
  · intro a b
    revert a b
    decide
  · decide +kernel

/-! ## C39: only bits are evaluated -/

section
variable [Transc K] [FloorRing K]

theorem binaryPosition_bits (thr : Vec d K) (v : Mat n d K) : Bits (binaryPosition thr v) := by
  intro i j
  unfold binaryPosition
  split <;> simp

/-- Everything stored is a bit matrix. -/
structure BitState (s : Opt n d K) : Prop where
  pos : Bits s.swarm.position
  pb : Bits s.swarm.pbestPos
  hist : ∀ x ∈ s.posHistory, Bits x
  evals : ∀ e ∈ s.evals, Bits e.1

theorem bitState_move (cfg : Config n d K) (hk : cfg.kind = .binary) (r : Draw n d K)
    (iters i : Nat) (s : Opt n d K) (h : BitState s) :
    BitState (moveSwarm cfg r iters i s).1 := by
  have hc := moveSwarm_cases cfg r iters i s
  generalize (moveSwarm cfg r iters i s).1 = s' at hc ⊢
  generalize (moveSwarm cfg r iters i s).2 = o at hc
  obtain ⟨h1, h2, h3, h4⟩ := h
  cases hc with
  | optError e h => exact ⟨h1, h2, h3, h4⟩
  | velError o vm e h hv => exact ⟨h1, h2, h3, h4⟩
  | posError o vm v bm e h hv hp => exact ⟨h1, h2, h3, h4⟩
  | ok o vm v bm p h hv hp =>
    refine ⟨?_, h2, h3, h4⟩
    simp only [callPosition, hk, Prod.mk.injEq, Except.ok.injEq] at hp
    rw [← hp.2]
    exact binaryPosition_bits _ _

theorem bitState_iterate (cfg : Config n d K) (hk : cfg.kind = .binary)
    (ev : Mat n d K → Except Err (Costs n K)) (r : Draw n d K) (iters i : Nat) (q : List Bool)
    (s : Opt n d K) (h : BitState s) : BitState (iterate cfg ev r iters i q s).1 := by
  refine iterate_inv cfg ev r iters i q (fun s => BitState s) ?_ ?_ ?_ ?_ s h
  · rintro s c ⟨h1, h2, h3, h4⟩ -
    refine ⟨h1, ?_, h3, ?_⟩
    · intro i j
      rcases recordEval_pbestPos_or c s i with h | h
      · rw [h]; exact h2 i j
      · rw [h]; exact h1 i j
    · intro e he
      simp only [recordEval, List.mem_append, List.mem_singleton] at he
      rcases he with he | rfl
      · exact h4 e he
      · exact h1
  · rintro s t ⟨h1, h2, h3, h4⟩
    exact ⟨h1, h2, h3, h4⟩
  · rintro s t g ⟨h1, h2, h3, h4⟩
    refine ⟨h1, h2, ?_, h4⟩
    intro x hx
    simp only [recordBest, Opt.populateHistory, List.mem_append, List.mem_singleton] at hx
    rcases hx with hx | rfl
    · exact h3 x hx
    · exact h1
  · intro s hs
    exact bitState_move cfg hk r iters i s hs

theorem bitState_reachable (cfg : Config n d K) (hk : cfg.kind = .binary)
    (hinit : ∀ p, cfg.initPos = some p → Bits p) (s : Opt n d K) (h : Reachable cfg s) :
    BitState s := by
  refine reachable_inv cfg (fun s => BitState s) ?_ ?_ s h
  · intro r sw t a b p hsw
    have hb := (fresh_reachable_init cfg r sw hsw).2.2.2.1
    have hpos : Bits sw.position := by
      unfold resetSwarm createSwarm at hsw
      have hbin : cfg.isBinary = true := by unfold Config.isBinary; rw [hk]
      simp only [hbin, if_true] at hsw
      rcases hi : cfg.initPos with _ | p0
      · obtain ⟨p1, hp1, hp2, -⟩ := C41_binary (K := K) r.bits r.argsort
        rw [hi, hp1] at hsw
        simp only [Except.ok.injEq] at hsw
        rw [← hsw]
        exact hp2
      · rw [hi] at hsw
        by_cases htwo : ∃ x y, ∀ i j, p0 i j = x ∨ p0 i j = y
        · rw [(C41_init_pos p0 r.bits r.argsort).1 htwo] at hsw
          simp only [Except.ok.injEq] at hsw
          rw [← hsw]
          exact hinit p0 hi
        · rw [(C41_init_pos p0 r.bits r.argsort).2 htwo] at hsw
          cases hsw
    exact ⟨hpos, by rw [hb]; exact hpos, by simp, by simp⟩
  · intro ev iters nproc env s hs
    refine optimize_inv cfg ev iters nproc env (fun s => BitState s) ?_ ?_ ?_ s hs
    · rintro s a b c ⟨h1, h2, h3, h4⟩; exact ⟨h1, h2, h3, h4⟩
    · rintro s ⟨h1, h2, h3, h4⟩; exact ⟨h1, h2, h3, h4⟩
    · intro i q s hs; exact bitState_iterate cfg hk (ev i) (env i) iters i q s hs

/-- C39.  Through any sequence of calls, `BinaryPSO` (with generated or 0/1 initial positions)
evaluates, records and returns 0/1 positions only. -/
theorem C39_only_bits (cfg : Config n d K) (hk : cfg.kind = .binary)
    (hinit : ∀ p, cfg.initPos = some p → Bits p) (s : Opt n d K) (h : Reachable cfg s) :
    (∀ e ∈ s.evals, Bits e.1) ∧ (∀ x ∈ s.posHistory, Bits x) ∧ Bits s.swarm.position ∧
    ∀ ev iters nproc env c p, (optimize cfg ev iters nproc env s).2 = .ok (c, p) →
      ∀ j, p j = 0 ∨ p j = 1 := by
  have hb := bitState_reachable cfg hk hinit s h
  refine ⟨hb.evals, hb.hist, hb.pos, ?_⟩
  intro ev iters nproc env c p hok
  have hb' : BitState (optimize cfg ev iters nproc env s).1 := by
    obtain ⟨r1, r2, s0, ops, hc, rfl⟩ := h
    refine bitState_reachable cfg hk hinit _ ⟨r1, r2, s0, ops ++ [.optimize ev iters nproc env], hc,
      by simp [runOps, List.foldl_append, stepOp]⟩
  have hc := optimize_cases cfg ev iters nproc env s
  generalize (optimize cfg ev iters nproc env s).1 = s' at hc hb'
  rw [hok] at hc
  cases hc with
  | done s1 r hp hl hf =>
    unfold finish at hf
    split at hf
    · cases hf
    · split at hf
      · cases hf
      · next k hk =>
        cases hf
        intro j
        exact hb'.pb _ j

/-- The position of a `BinaryPSO` object is its initial one or the bits obtained from its velocity
by comparing `sigmoid(velocity)` with one threshold per dimension. -/
def FromVelocity (s : Opt n d K) : Prop :=
  ∃ thr : Vec d K, ∀ i j, (s.swarm.position i j = 1 ∨ s.swarm.position i j = 0) ∧
    (s.swarm.position i j = 1 ↔ thr j < 1 / (1 + Transc.exp (-s.swarm.velocity i j)))

/-- C39, update rule: whenever an iteration is completed, each bit is 1 iff the drawn threshold is
below `sigmoid` of the new velocity. -/
theorem C39_rule (cfg : Config n d K) (hk : cfg.kind = .binary) (r : Draw n d K) (iters i : Nat)
    (s s' : Opt n d K) (h : moveSwarm cfg r iters i s = (s', .ok ())) (a : Fin n) (j : Fin d) :
    (s'.swarm.position a j = 1 ∨ s'.swarm.position a j = 0) ∧
    (s'.swarm.position a j = 1 ↔ r.thr j < 1 / (1 + Transc.exp (-s'.swarm.velocity a j))) := by
  have hc := moveSwarm_cases cfg r iters i s
  rw [h] at hc
  simp only at hc
  cases hc with
  | ok o vm v bm p h hv hp =>
    simp only [callPosition, hk, Prod.mk.injEq, Except.ok.injEq] at hp
    simp only
    rw [← hp.2]
    unfold binaryPosition sigmoid
    split
    · next hlt => exact ⟨Or.inl rfl, fun _ => hlt, fun _ => rfl⟩
    · next hlt => exact ⟨Or.inr rfl, fun h => absurd h (by simp), fun h => absurd h hlt⟩

/-- C40 in a run: in every reachable state of a `BinaryPSO` object (also after exceptions) the
positions and velocities are those of a newly created swarm, or the positions come from the
velocities by one threshold per dimension that is shared by all particles. -/
theorem C40_run (cfg : Config n d K) (hk : cfg.kind = .binary) (s : Opt n d K)
    (h : Reachable cfg s) :
    (∃ r sw, resetSwarm cfg r = .ok sw ∧ s.swarm.position = sw.position ∧
      s.swarm.velocity = sw.velocity) ∨ FromVelocity s := by
  refine reachable_inv cfg (fun s => (∃ r sw, resetSwarm cfg r = .ok sw ∧
      s.swarm.position = sw.position ∧ s.swarm.velocity = sw.velocity) ∨ FromVelocity s)
      ?_ ?_ s h
  · intro r sw t a b p hsw
    exact Or.inl ⟨r, sw, hsw, rfl, rfl⟩
  · intro ev iters nproc env s hs
    refine optimize_inv cfg ev iters nproc env (fun s => (∃ r sw, resetSwarm cfg r = .ok sw ∧
      s.swarm.position = sw.position ∧ s.swarm.velocity = sw.velocity) ∨ FromVelocity s)
      (fun s _ _ _ h => h) (fun s h => h) ?_ s hs
    intro i q s hs
    refine iterate_inv cfg (ev i) (env i) iters i q (fun s => (∃ r sw, resetSwarm cfg r = .ok sw ∧
      s.swarm.position = sw.position ∧ s.swarm.velocity = sw.velocity) ∨ FromVelocity s)
      (fun s _ h _ => h) (fun s _ h => h) (fun s _ _ h => h) ?_ s hs
    intro s hs
    rcases ho : moveSwarm cfg (env i) iters i s with ⟨s', e | ⟨⟩⟩
    · have hc := moveSwarm_cases cfg (env i) iters i s
      rw [ho] at hc
      simp only at hc ⊢
      cases hc with
      | optError e h => exact hs
      | velError o vm e h hv => exact hs
      | posError o vm v bm e h hv hp =>
        simp only [callPosition, hk, Prod.mk.injEq] at hp
        cases hp.2
    · exact Or.inr ⟨(env i).thr, fun a j => C39_rule cfg hk (env i) iters i s s' ho a j⟩

/-- C40: particles with equal velocities (in a dimension) get equal bits (in that dimension). -/
theorem C40_equal (s : Opt n d K) (h : FromVelocity s) (a b : Fin n) (j : Fin d)
    (hv : s.swarm.velocity a j = s.swarm.velocity b j) :
    s.swarm.position a j = s.swarm.position b j := by
  obtain ⟨thr, ht⟩ := h
  obtain ⟨ha1, ha2⟩ := ht a j
  obtain ⟨hb1, hb2⟩ := ht b j
  rw [hv] at ha2
  rcases ha1 with h1 | h1
  · rw [h1, hb2.2 (ha2.1 h1)]
  · rcases hb1 with h2 | h2
    · exact absurd (ha2.2 (hb2.1 h2)) (by rw [h1]; simp)
    · rw [h1, h2]

end

/-- The real sigmoid is increasing with values strictly between 0 and 1. -/
theorem sigmoid_real (x y : ℝ) (h : x ≤ y) :
    sigmoid x ≤ sigmoid y ∧ 0 < sigmoid x ∧ sigmoid x < 1 := by
  have hx := Real.exp_pos (-x)
  have hy := Real.exp_pos (-y)
  have hxy : Real.exp (-y) ≤ Real.exp (-x) := Real.exp_le_exp.2 (by linarith)
  refine ⟨one_div_le_one_div_of_le ?_ ?_, ?_, ?_⟩
  · show 0 < 1 + Real.exp (-y)
    linarith
  · show 1 + Real.exp (-y) ≤ 1 + Real.exp (-x)
    linarith
  · show 0 < 1 / (1 + Real.exp (-x))
    positivity
  · show 1 / (1 + Real.exp (-x)) < 1
    rw [div_lt_one (by linarith)]
    linarith

/-- C40: of two particles, the one with the larger velocity in a dimension has the larger bit
there. -/
theorem C40_monotone (s : Opt n d ℝ) (h : FromVelocity s) (a b : Fin n) (j : Fin d)
    (hv : s.swarm.velocity a j ≤ s.swarm.velocity b j) :
    s.swarm.position a j ≤ s.swarm.position b j := by
  obtain ⟨thr, ht⟩ := h
  obtain ⟨ha1, ha2⟩ := ht a j
  obtain ⟨hb1, hb2⟩ := ht b j
  rcases ha1 with h1 | h1
  · have h2 : thr j < sigmoid (s.swarm.velocity a j) := ha2.1 h1
    have h3 := lt_of_lt_of_le h2 (sigmoid_real _ _ hv).1
    rw [h1, hb2.2 h3]
  · rw [h1]
    rcases hb1 with h2 | h2 <;> rw [h2] <;> norm_num

/-- C39: a velocity of 0 gives a fair coin. -/
theorem C39_fair_coin (thr : Vec d ℝ) (v : Mat n d ℝ) (a : Fin n) (j : Fin d) (hv : v a j = 0) :
    binaryPosition thr v a j = if thr j < 1 / 2 then 1 else 0 := by
  have : sigmoid (v a j) = 1 / 2 := by
    show 1 / (1 + Real.exp (-(v a j))) = 1 / 2
    rw [hv]
    norm_num
  unfold binaryPosition
  rw [this]

/-- Non-vacuity: a `BinaryPSO` run of three iterations. -/
example : (match construct (Ex.bcfg 3 2 3) (Ex.init 3 2) (Ex.init 3 2) with
    | .ok s => match optimize (Ex.bcfg 3 2 3) (Ex.sphere 3 2) 3 none (fun _ => Ex.draw 3 2) s with
      | (s', .ok _) => decide (s'.evals.length = 3 ∧
          ∀ e ∈ s'.evals, ∀ i j, e.1 i j = 0 ∨ e.1 i j = 1)
      | _ => false
    | _ => false) = true := by decide +kernel

end PySwarms
