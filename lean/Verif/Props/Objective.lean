import Verif.Model.Objective
import Verif.Lemmas.Sim
import Verif.Examples
import Mathlib.Data.List.Perm.Basic

/-! # C30, C31: evaluation of the objective -/

set_option linter.unusedSectionVars false

namespace PySwarms

variable {n d : Nat} {K : Type}

/-! ## array_split -/

theorem cut_flatten {α : Type} (ms : List Nat) (l : List α) (h : l.length ≤ ms.sum) :
    (cut ms l).flatten = l := by
  induction ms generalizing l with
  | nil => simp only [List.sum_nil, Nat.le_zero, List.length_eq_zero_iff] at h; subst h; rfl
  | cons m ms ih =>
    rw [cut, List.flatten_cons, ih, List.take_append_drop]
    rw [List.length_drop]
    simp only [List.sum_cons] at h
    omega

theorem cut_length {α : Type} (ms : List Nat) (l : List α) : (cut ms l).length = ms.length := by
  induction ms generalizing l with
  | nil => rfl
  | cons m ms ih => simp [cut, ih]

theorem splitSizes_sum (n p : Nat) (hp : 0 < p) : (splitSizes n p).sum = n := by
  unfold splitSizes
  rw [List.sum_append_nat, List.sum_replicate_nat, List.sum_replicate_nat]
  have h1 : n % p < p := Nat.mod_lt _ hp
  have h2 := Nat.div_add_mod n p
  have h3 : (p - n % p) * (n / p) + n % p * (n / p) = p * (n / p) := by
    rw [← Nat.add_mul]; congr 1; omega
  rw [Nat.mul_add, Nat.mul_one]
  omega

theorem splitSizes_length (n p : Nat) (hp : 0 < p) : (splitSizes n p).length = p := by
  unfold splitSizes
  have h1 : n % p < p := Nat.mod_lt _ hp
  simp only [List.length_append, List.length_replicate]
  omega

/-- C30: the chunks, concatenated, are the particles in order; there are as many chunks as
processes; chunk lengths differ by at most one. -/
theorem C30_split {α : Type} (x : List α) (p : Nat) (hp : 0 < p) :
    (arraySplit x p).flatten = x ∧ (arraySplit x p).length = p ∧
      ∀ c ∈ arraySplit x p, c.length = x.length / p ∨ c.length = x.length / p + 1 := by
  refine ⟨?_, ?_, ?_⟩
  · exact cut_flatten _ _ (by rw [splitSizes_sum _ _ hp])
  · unfold arraySplit
    rw [cut_length, splitSizes_length _ _ hp]
  · have key : ∀ (ms : List Nat) (l : List α), ms.sum ≤ l.length →
        ∀ c ∈ cut ms l, c.length ∈ ms := by
      intro ms
      induction ms with
      | nil => intro l _ c hc; cases hc
      | cons m ms ih =>
        intro l hl c hc
        simp only [List.sum_cons] at hl
        rw [cut, List.mem_cons] at hc
        rcases hc with rfl | hc
        · rw [List.length_take, Nat.min_eq_left (by omega)]
          exact List.mem_cons_self
        · exact List.mem_cons_of_mem _ (ih (l.drop m) (by rw [List.length_drop]; omega) c hc)
    intro c hc
    have := key _ x (by rw [splitSizes_sum _ _ hp]) c hc
    unfold splitSizes at this
    simp only [List.mem_append, List.mem_replicate] at this
    rcases this with h | h
    · exact Or.inr h.2
    · exact Or.inl h.2

/-! ## pool.map -/

/-- `sched` is a completion order of `m` tasks: every task completes exactly once. -/
def IsSchedule (sched : List Nat) (m : Nat) : Prop := sched.Perm (List.range m)

instance (sched : List Nat) (m : Nat) : Decidable (IsSchedule sched m) := by
  unfold IsSchedule; infer_instance

theorem arrive_spec {α β : Type} (f : α → Except Err β) (tasks : List α) (done : List Nat)
    (r : MapResult β) (hdone : ∀ k ∈ done, k < tasks.length)
    (hr : r = done.foldl (MapResult.arrive f tasks) {}) :
    (∀ (k : Nat) (h : k < tasks.length) b, f tasks[k] = .ok b →
      r.slots k = if k ∈ done then some b else none) ∧
    ((∃ e, r.failure = some e ∧ ∃ k ∈ done, ∃ h : k < tasks.length, f tasks[k] = .error e) ∨
      (r.failure = none ∧ ∀ k ∈ done, ∃ h : k < tasks.length, ∃ b, f tasks[k] = .ok b)) := by
  induction done using List.reverseRecOn generalizing r with
  | nil => subst hr; exact ⟨by simp, Or.inr ⟨rfl, by simp⟩⟩
  | append_singleton done k ih =>
    obtain ⟨ih1, ih2⟩ := ih _ (fun k hk => hdone k (by simp [hk])) rfl
    rw [List.foldl_append] at hr
    simp only [List.foldl_cons, List.foldl_nil] at hr
    generalize done.foldl (MapResult.arrive f tasks) {} = r0 at hr ih1 ih2
    have hk : k < tasks.length := hdone k (by simp)
    unfold MapResult.arrive at hr
    rw [List.getElem?_eq_getElem hk] at hr
    simp only at hr
    rcases hf : f tasks[k] with e | b
    · rw [hf] at hr
      simp only at hr
      subst hr
      constructor
      · intro j hj b' hb'
        have hne : j ≠ k := by rintro rfl; rw [hf] at hb'; cases hb'
        rw [ih1 j hj b' hb']
        simp [hne]
      · left
        rcases ih2 with ⟨e', he', hx⟩ | ⟨hn, hx⟩
        · refine ⟨e', by simp [he'], ?_⟩
          obtain ⟨j, hj, h⟩ := hx
          exact ⟨j, by simp [hj], h⟩
        · exact ⟨e, by simp [hn], k, by simp, hk, hf⟩
    · rw [hf] at hr
      simp only at hr
      subst hr
      constructor
      · intro j hj b' hb'
        by_cases hjk : j = k
        · subst hjk
          rw [hf] at hb'
          cases hb'
          simp
        · simp only [hjk, if_false, List.mem_append, List.mem_singleton, or_false]
          exact ih1 j hj b' hb'
      · rcases ih2 with ⟨e', he', hx⟩ | ⟨hn, hx⟩
        · left
          obtain ⟨j, hj, h⟩ := hx
          exact ⟨e', he', j, by simp [hj], h⟩
        · right
          refine ⟨hn, ?_⟩
          intro j hj
          rw [List.mem_append, List.mem_singleton] at hj
          rcases hj with hj | rfl
          · exact hx j hj
          · exact ⟨hk, b, hf⟩

/-- `pool.map` returns the results in the order of the tasks, whatever the completion order; it
raises an exception iff some task raises, and then one that some task raised. -/
theorem poolMap_spec {α β : Type} (f : α → Except Err β) (tasks : List α) (sched : List Nat)
    (hs : IsSchedule sched tasks.length) :
    (∀ g : α → β, (∀ a ∈ tasks, f a = .ok (g a)) → poolMap f tasks sched = .ok (tasks.map g)) ∧
    ((∃ a ∈ tasks, ∃ e, f a = .error e) →
      ∃ a ∈ tasks, ∃ e, f a = .error e ∧ poolMap f tasks sched = .error e) := by
  have hmem : ∀ k, k ∈ sched ↔ k < tasks.length := by
    intro k
    rw [hs.mem_iff, List.mem_range]
  obtain ⟨h1, h2⟩ := arrive_spec f tasks sched _ (fun k hk => (hmem k).1 hk) rfl
  unfold poolMap
  generalize sched.foldl (MapResult.arrive f tasks) {} = r at h1 h2
  dsimp only
  constructor
  · intro g hg
    rcases h2 with ⟨e, -, k, -, hk, hke⟩ | ⟨hn, -⟩
    · rw [hg _ (List.getElem_mem hk)] at hke; cases hke
    · rw [hn]
      dsimp only
      have hslots : ∀ k (hk : k < tasks.length), r.slots k = some (g tasks[k]) := by
        intro k hk
        rw [h1 k hk _ (hg _ (List.getElem_mem hk)), if_pos ((hmem k).2 hk)]
      have : (List.range tasks.length).mapM r.slots = some (tasks.map g) := by
        have key : ∀ (ks : List Nat) (l : List β), List.Forall₂ (fun k b => r.slots k = some b) ks l →
            ks.mapM r.slots = some l := by
          intro ks l h
          induction h with
          | nil => rfl
          | @cons k b ks l hkb _ ih => rw [List.mapM_cons, hkb, ih]; rfl
        apply key
        rw [List.forall₂_iff_get]
        refine ⟨by simp, ?_⟩
        intro i h1 h2
        simp only [List.length_range] at h1
        simpa using hslots i h1
      rw [this]
  · rintro ⟨a, ha, e, he⟩
    rcases h2 with ⟨e', he', k, -, hk, hke⟩ | ⟨-, hx⟩
    · refine ⟨tasks[k], List.getElem_mem hk, e', hke, ?_⟩
      rw [he']
    · exfalso
      obtain ⟨k, hk, rfl⟩ := List.getElem_of_mem ha
      obtain ⟨_, b, hb⟩ := hx k ((hmem k).2 hk)
      rw [hb] at he
      cases he

/-! ## C30 -/

/-- The objective computes the cost of each particle from its own position alone. -/
def RowWise (f : Objective d K) : Prop := ∃ g : Vec d K → XR K, ∀ x, f x = .ok (x.map g)

/-- C30: for a row-wise objective, evaluation with a pool of any size `p > 0`, under any completion
order of the tasks, returns exactly what serial evaluation returns. -/
theorem C30_parallel_eq_serial (f : Objective d K) (hf : RowWise f) (p : Nat) (hp : 0 < p)
    (sched : List Nat) (hs : IsSchedule sched p) (x : List (Vec d K)) :
    computeObjective f (some (p, sched)) x = computeObjective f none x := by
  obtain ⟨g, hg⟩ := hf
  obtain ⟨hs1, hs2, -⟩ := C30_split x p hp
  unfold computeObjective
  dsimp only
  rw [(poolMap_spec f (arraySplit x p) sched (by rw [hs2]; exact hs)).1 (fun c => c.map g)
    (fun a _ => hg a)]
  simp only
  rw [hg x]
  congr 1
  rw [← List.map_flatten, hs1]

/-- C30 for objectives that may raise: the cost of each particle, or an exception, is computed from
its own position. -/
def RowWiseRaising (f : Objective d K) (g : Vec d K → Except Err (XR K)) : Prop :=
  (∀ x v, (∀ a ∈ x, g a = .ok (v a)) → f x = .ok (x.map v)) ∧
  ∀ x, (∃ a ∈ x, ∃ e, g a = .error e) → ∃ a ∈ x, ∃ e, g a = .error e ∧ f x = .error e

/-- C30 with exceptions: the parallel evaluation raises iff the serial one does; if nothing raises
the results are equal; if something raises, the exception is that of some particle (which one may
depend on the schedule). -/
theorem C30_exceptions (f : Objective d K) (g : Vec d K → Except Err (XR K))
    (hf : RowWiseRaising f g) (p : Nat) (hp : 0 < p) (sched : List Nat) (hs : IsSchedule sched p)
    (x : List (Vec d K)) :
    (∀ l, computeObjective f none x = .ok l → computeObjective f (some (p, sched)) x = .ok l) ∧
    ((∃ e, computeObjective f none x = .error e) ↔
      ∃ e, computeObjective f (some (p, sched)) x = .error e) ∧
    ∀ e, computeObjective f (some (p, sched)) x = .error e → ∃ a ∈ x, g a = .error e := by
  classical
  obtain ⟨hs1, hs2, -⟩ := C30_split x p hp
  have hpm := poolMap_spec f (arraySplit x p) sched (by rw [hs2]; exact hs)
  have hmem : ∀ a, a ∈ x ↔ ∃ c ∈ arraySplit x p, a ∈ c := by
    intro a
    conv_lhs => rw [← hs1]
    rw [List.mem_flatten]
  by_cases hbad : ∃ a ∈ x, ∃ e, g a = .error e
  · obtain ⟨a, ha, e, hae⟩ := hbad
    obtain ⟨_, _, e1, -, hser⟩ := hf.2 x ⟨a, ha, e, hae⟩
    obtain ⟨c, hc, hac⟩ := (hmem a).1 ha
    obtain ⟨a2, ha2, e2, he2, hc2⟩ := hf.2 c ⟨a, hac, e, hae⟩
    obtain ⟨c3, hc3, e3, hf3, hpar⟩ := hpm.2 ⟨c, hc, e2, hc2⟩
    have hpar' : computeObjective f (some (p, sched)) x = .error e3 := by
      unfold computeObjective; dsimp only; rw [hpar]
    have hser' : computeObjective f none x = .error e1 := hser
    refine ⟨?_, ?_, ?_⟩
    · intro l hl; rw [hser'] at hl; cases hl
    · exact ⟨fun _ => ⟨_, hpar'⟩, fun _ => ⟨_, hser'⟩⟩
    · intro e' he'
      rw [hpar'] at he'
      cases he'
      -- the failing chunk contains a particle that raises this exception
      by_cases hb3 : ∃ a ∈ c3, ∃ e, g a = .error e
      · obtain ⟨a4, ha4, e4, he4, hf4⟩ := hf.2 c3 hb3
        rw [hf3] at hf4
        cases hf4
        exact ⟨a4, (hmem a4).2 ⟨c3, hc3, ha4⟩, he4⟩
      · exfalso
        have hok : ∀ a ∈ c3, ∃ v, g a = .ok v := by
          intro a ha
          rcases hga : g a with e | v
          · exact absurd ⟨a, ha, e, hga⟩ hb3
          · exact ⟨v, rfl⟩
        have := hf.1 c3 (fun a => match g a with | .ok v => v | .error _ => XR.nan)
          (fun a ha => by obtain ⟨v, hv⟩ := hok a ha; rw [hv])
        rw [hf3] at this
        cases this
  · have hok : ∀ a ∈ x, g a = .ok (match g a with | .ok v => v | .error _ => XR.nan) := by
      intro a ha
      rcases hga : g a with e | v
      · exact absurd ⟨a, ha, e, hga⟩ hbad
      · rfl
    have hser : computeObjective f none x =
        .ok (x.map fun a => match g a with | .ok v => v | .error _ => XR.nan) := hf.1 x _ hok
    have hpar : computeObjective f (some (p, sched)) x =
        .ok (x.map fun a => match g a with | .ok v => v | .error _ => XR.nan) := by
      unfold computeObjective
      dsimp only
      rw [hpm.1 (fun c => c.map fun a => match g a with | .ok v => v | .error _ => XR.nan)
        (fun c hc => hf.1 c _ (fun a ha => hok a ((hmem a).2 ⟨c, hc, ha⟩)))]
      simp only
      rw [← List.map_flatten, hs1]
    refine ⟨?_, ?_, ?_⟩
    · intro l hl; rw [hser] at hl; rw [hpar]; exact hl
    · rw [hser, hpar]
    · intro e he; rw [hpar] at he; cases he

/-! ### A whole run -/

section
variable [Field K] [LinearOrder K] [Transc K] [FloorRing K]

/-- Iterations neither read nor write the number of open pools. -/
theorem iterate_pools (cfg : Config n d K) (ev : Mat n d K → Except Err (Costs n K))
    (r : Draw n d K) (iters i : Nat) (q : List Bool) (s : Opt n d K) (p : Nat) :
    iterate cfg ev r iters i q { s with openPools := p } =
      ({ (iterate cfg ev r iters i q s).1 with openPools := p },
        (iterate cfg ev r iters i q s).2) := by
  have hmove : ∀ s : Opt n d K, moveSwarm cfg r iters i { s with openPools := p } =
      ({ (moveSwarm cfg r iters i s).1 with openPools := p }, (moveSwarm cfg r iters i s).2) := by
    intro s
    unfold moveSwarm
    dsimp only
    split
    · rfl
    · split
      · rfl
      · split <;> rfl
  have hrec : ∀ (t : TopState n) (g : GBest n d K) (c : Costs n K),
      recordBest t g (recordEval c { s with openPools := p }) =
        { recordBest t g (recordEval c s) with openPools := p } := fun _ _ _ => rfl
  unfold iterate
  dsimp only
  split
  · rfl
  · next c hc =>
    have h1 : (recordEval c { s with openPools := p }).swarm = (recordEval c s).swarm := rfl
    have h2 : (recordEval c { s with openPools := p }).top = (recordEval c s).top := rfl
    rw [h1, h2]
    split
    · rfl
    · next t g hg =>
      rw [hrec t g c, hmove]
      dsimp only
      split
      · rfl
      · rcases moveSwarm cfg r iters i (recordBest t g (recordEval c s)) with ⟨s3, e | u⟩ <;> rfl

/-- C30 for a whole run: `optimize(n_processes=p)` with a row-wise objective, under any schedules,
returns the same value (or exception) as `optimize()` and leaves the object in the same state; if
it returns normally the number of open pools is the same, too. -/
theorem C30_optimize (cfg : Config n d K) (f : Nat → Objective d K) (hf : ∀ k, RowWise (f k))
    (p : Nat) (hp : 0 < p) (sched : Nat → List Nat) (hs : ∀ k, IsSchedule (sched k) p)
    (iters : Nat) (env : Nat → Draw n d K) (s : Opt n d K) :
    (optimize cfg (evaluator f fun k => some (p, sched k)) iters (some p) env s).2 =
      (optimize cfg (evaluator f fun _ => none) iters none env s).2 ∧
    { (optimize cfg (evaluator f fun k => some (p, sched k)) iters (some p) env s).1 with
        openPools := 0 } =
      { (optimize cfg (evaluator f fun _ => none) iters none env s).1 with openPools := 0 } ∧
    ∀ v, (optimize cfg (evaluator f fun _ => none) iters none env s).2 = .ok v →
      (optimize cfg (evaluator f fun k => some (p, sched k)) iters (some p) env s).1 =
        (optimize cfg (evaluator f fun _ => none) iters none env s).1 := by
  have hev : (evaluator f fun k => some (p, sched k)) =
      (evaluator f fun _ => none : Nat → Mat n d K → Except Err (Costs n K)) := by
    funext k x
    unfold evaluator
    rw [C30_parallel_eq_serial (f k) (hf k) p hp (sched k) (hs k)]
  rw [hev]
  generalize (evaluator f fun _ => none : Nat → Mat n d K → Except Err (Costs n K)) = ev
  obtain ⟨h1, h2⟩ := loop_sim cfg cfg ev ev env env iters
    (fun s s' => s' = { s with openPools := s.openPools + 1 }) (fun i q s s' h => by
      subst h
      have h1 := iterate_pools cfg (ev i) (env i) iters i q s (s.openPools + 1)
      have h2 := iterate_pools cfg (ev i) (env i) iters i q s s.openPools
      have h3 : (iterate cfg (ev i) (env i) iters i q s).1.openPools = s.openPools := by
        have : ({ s with openPools := s.openPools } : Opt n d K) = s := rfl
        rw [this] at h2
        rw [h2]
      rw [h1]
      exact ⟨by rw [h3], rfl⟩) iters 0 []
    { prepare cfg s with openPools := s.openPools + (if (none : Option Nat).isSome then 1 else 0) }
    { prepare cfg s with openPools := s.openPools + (if (some p).isSome then 1 else 0) } rfl
  simp only [Option.isSome_none, Option.isSome_some, Bool.false_eq_true, if_false, if_true] at h1 h2
  have hA : optimize cfg ev iters (some p) env s =
      (match loop cfg ev env iters iters 0 [] { prepare cfg s with openPools := s.openPools + 1 } with
      | (s1, .error e) => (s1, .error e)
      | (s1, .ok ()) =>
        match finish s1 with
        | .error e => (s1, .error e)
        | .ok r => ({ s1 with openPools := s1.openPools - 1 }, .ok r)) := by
    unfold optimize
    rw [if_neg (by simp; omega)]
    rfl
  have hB : optimize cfg ev iters none env s =
      (match loop cfg ev env iters iters 0 [] { prepare cfg s with openPools := s.openPools + 0 } with
      | (s1, .error e) => (s1, .error e)
      | (s1, .ok ()) =>
        match finish s1 with
        | .error e => (s1, .error e)
        | .ok r => (s1, .ok r)) := by
    unfold optimize
    rw [if_neg (by simp)]
    rfl
  rw [hA, hB]
  generalize loop cfg ev env iters iters 0 [] { prepare cfg s with
    openPools := s.openPools + 0 } = o at h1 h2
  generalize loop cfg ev env iters iters 0 [] { prepare cfg s with
    openPools := s.openPools + 1 } = o' at h1 h2
  obtain ⟨s1, o⟩ := o
  obtain ⟨s1', o'⟩ := o'
  dsimp only at h1 h2
  subst h1 h2
  rcases o with e | u
  · exact ⟨rfl, rfl, fun v h => by cases h⟩
  · dsimp only
    have hfin : finish { s1 with openPools := s1.openPools + 1 } = finish s1 := rfl
    rw [hfin]
    cases finish s1 with
    | error e => exact ⟨rfl, rfl, fun v h => by cases h⟩
    | ok r => exact ⟨rfl, rfl, fun v h => rfl⟩

end

/-- C30: the hypothesis is needed.  An objective that subtracts the first particle's coordinate
from all gives different results with two processes. -/
theorem C30_not_rowwise_witness : ∃ (f : Objective 1 ℚ) (x : List (Vec 1 ℚ)),
    IsSchedule [1, 0] 2 ∧ computeObjective f (some (2, [1, 0])) x ≠ computeObjective f none x := by
  refine ⟨fun x => .ok (match x with
    | [] => []
    | a :: l => (a :: l).map fun b => XR.fin (b 0 - a 0)), [fun _ => 1, fun _ => 2],
    by decide, ?_⟩
  intro h
  have h1 : ((match computeObjective (fun x => .ok (match x with
    | [] => []
    | a :: l => (a :: l).map fun b => XR.fin (b 0 - a 0)) : Objective 1 ℚ) (some (2, [1, 0]))
      [fun _ => 1, fun _ => 2] with
    | .ok l => decide (l = [XR.fin 0, XR.fin 0])
    | _ => false) = true) := by decide +kernel
  have h2 : ((match computeObjective (fun x => .ok (match x with
    | [] => []
    | a :: l => (a :: l).map fun b => XR.fin (b 0 - a 0)) : Objective 1 ℚ) none
      [fun _ => 1, fun _ => 2] with
    | .ok l => decide (l = [XR.fin 0, XR.fin 0])
    | _ => false) = false) := by decide +kernel
  rw [h] at h1
  rw [h1] at h2
  cases h2

/-! ## C31: the cost decorator -/

theorem costValues_ok (g : Vec d K → Except Err (PyVal K)) (x : List (Vec d K))
    (v : Vec d K → PyVal K) (h : ∀ a ∈ x, g a = .ok (v a)) : costValues g x = .ok (x.map v) := by
  induction x with
  | nil => rfl
  | cons a x ih =>
    rw [costValues, h a (by simp), ih (fun b hb => h b (by simp [hb]))]
    rfl

/-- C31: if the cost function returns a number on every row, the decorated function returns these
numbers in order – for any number of particles, including none. -/
theorem C31_vectorises (g : Vec d K → Except Err (PyVal K)) (v : Vec d K → XR K)
    (x : List (Vec d K)) (h : ∀ a ∈ x, g a = .ok (.scalar (v a))) :
    costDec g x = .ok (x.map v) := by
  unfold costDec
  rw [costValues_ok g x (fun a => .scalar (v a)) h]
  simp only
  unfold packValues
  have : (x.map fun a => PyVal.scalar (v a)).mapM PyVal.number = some (x.map v) := by
    induction x with
    | nil => rfl
    | cons a x ih =>
      simp only [List.map_cons, List.mapM_cons, ih (fun b hb => h b (by simp [hb]))]
      rfl
  rw [this]

/-- C31: if the cost function returns arrays of one and the same non-scalar shape, the decorated
function raises `ValueError` (for at least one particle). -/
theorem C31_rejects_arrays (g : Vec d K → Except Err (PyVal K)) (m : Nat) (sh : List Nat)
    (x : List (Vec d K)) (hx : x ≠ []) (h : ∀ a ∈ x, g a = .ok (.array m sh)) :
    costDec g x = .error .valueError := by
  unfold costDec
  rw [costValues_ok g x (fun _ => .array m sh) h]
  simp only
  unfold packValues
  cases x with
  | nil => exact absurd rfl hx
  | cons a x =>
    have : ((a :: x).map fun _ => (PyVal.array m sh : PyVal K)).mapM PyVal.number = none := by
      simp only [List.map_cons, List.mapM_cons]
      rfl
    rw [this]
    simp [PyVal.shape]

/-- C31: an exception of the cost function on some row propagates: it is the exception of the first
row that raises. -/
theorem C31_propagates (g : Vec d K → Except Err (PyVal K)) (pre post : List (Vec d K))
    (a : Vec d K) (e : Err) (hpre : ∀ b ∈ pre, ∃ v, g b = .ok v) (ha : g a = .error e) :
    costDec g (pre ++ a :: post) = .error e := by
  have : costValues g (pre ++ a :: post) = .error e := by
    induction pre with
    | nil => simp [costValues, ha]
    | cons b pre ih =>
      obtain ⟨v, hv⟩ := hpre b (by simp)
      rw [List.cons_append, costValues, hv]
      simp only
      rw [ih (fun c hc => hpre c (by simp [hc]))]
  unfold costDec
  rw [this]

/-- C31: a decorated number-valued cost function satisfies the hypothesis of C30. -/
theorem C31_rowWise (g : Vec d K → Except Err (PyVal K)) (v : Vec d K → XR K)
    (h : ∀ a, g a = .ok (.scalar (v a))) : RowWise (costDec g) :=
  ⟨v, fun x => C31_vectorises g v x fun a _ => h a⟩

/-- C31: a decorated cost function that returns a number or raises satisfies the hypothesis of the
exception part of C30. -/
theorem C31_rowWiseRaising (c : Vec d K → Except Err (XR K)) :
    RowWiseRaising (costDec fun a => (c a).map PyVal.scalar) c := by
  constructor
  · intro x v hv
    exact C31_vectorises _ v x fun a ha => by rw [hv a ha]; rfl
  · rintro x ⟨a, ha, e, hae⟩
    -- the first row that raises
    have : ∃ pre b post e, x = pre ++ b :: post ∧ (∀ y ∈ pre, ∃ v, c y = .ok v) ∧
        c b = .error e := by
      induction x with
      | nil => cases ha
      | cons y x ih =>
        rcases hy : c y with e' | v
        · exact ⟨[], y, x, e', rfl, by simp, hy⟩
        · rw [List.mem_cons] at ha
          rcases ha with rfl | ha
          · rw [hy] at hae; cases hae
          · obtain ⟨pre, b, post, e', h1, h2, h3⟩ := ih ha
            refine ⟨y :: pre, b, post, e', by rw [h1]; rfl, ?_, h3⟩
            intro z hz
            rw [List.mem_cons] at hz
            rcases hz with rfl | hz
            · exact ⟨v, hy⟩
            · exact h2 z hz
    obtain ⟨pre, b, post, e', rfl, h2, h3⟩ := this
    refine ⟨b, by simp, e', h3, C31_propagates _ pre post b e' ?_ ?_⟩
    · intro y hy
      obtain ⟨v, hv⟩ := h2 y hy
      exact ⟨.scalar v, by rw [hv]; rfl⟩
    · rw [h3]; rfl

/-- Non-vacuity of C30 for runs: the decorated sphere function, any schedule, three processes for
two particles; the run returns a finite cost. -/
def Ex.sphereCost : Vec 1 ℚ → Except Err (PyVal ℚ) := fun a => .ok (.scalar (.fin (a 0 * a 0)))

example : RowWise (costDec Ex.sphereCost) := C31_rowWise _ _ fun _ => rfl

example : (match construct (Ex.gcfg 2 1) (Ex.init 2 1) (Ex.init 2 1) with
    | .ok s => match optimize (Ex.gcfg 2 1)
        (evaluator (fun _ => costDec Ex.sphereCost) fun _ => some (3, [2, 0, 1])) 3 (some 3)
        (fun _ => Ex.draw 2 1) s with
      | (s', .ok (c, _)) => decide (c = .fin 0 ∧ s'.openPools = 0 ∧ s'.costHistory.length = 3)
      | _ => false
    | _ => false) = true := by decide +kernel

/-- Non-vacuity: five particles, three processes, an out-of-order schedule. -/
example : IsSchedule [2, 0, 1] 3 ∧
    (arraySplit [10, 20, 30, 40, 50] 3 = [[10, 20], [30, 40], [50]]) ∧
    (arraySplit [10, 20] 3 = [[10], [20], []]) := by decide

end PySwarms
