import Verif.Props.Objective

/-!
# C30: pools with more processes than particles
-/

namespace PySwarms
variable {d : Nat} {K : Type}

/-- The objective computes each cost from the particle's own position, but nothing is known about
the array without rows (code such as `x.max(axis=0)` raises there). -/
def RowWiseNonempty (f : Objective d K) : Prop :=
  ∃ g : Vec d K → XR K, ∀ x, x ≠ [] → f x = .ok (x.map g)

/-- C30 without an assumption on the array without rows: with at most as many processes as
particles, the pool evaluation returns exactly what serial evaluation returns. -/
theorem C30_enough_particles (f : Objective d K) (hf : RowWiseNonempty f) (p : Nat) (hp : 0 < p)
    (sched : List Nat) (hs : IsSchedule sched p) (x : List (Vec d K)) (hx : p ≤ x.length) :
    computeObjective f (some (p, sched)) x = computeObjective f none x := by
  obtain ⟨g, hg⟩ := hf
  obtain ⟨hs1, hs2, hs3⟩ := C30_split x p hp
  have hpos : 0 < x.length / p := Nat.div_pos hx hp
  unfold computeObjective
  dsimp only
  rw [(poolMap_spec f (arraySplit x p) sched (by rw [hs2]; exact hs)).1 (fun c => c.map g)
    (fun a ha => hg a (by
      rintro rfl
      rcases hs3 [] ha with h | h <;> simp only [List.length_nil] at h <;> omega))]
  simp only
  rw [hg x (by rintro rfl; simp only [List.length_nil] at hx; omega)]
  congr 1
  rw [← List.map_flatten, hs1]

/-- C30: with more processes than particles some process gets the array without rows, and if the
objective raises on it the pool evaluation raises – for every schedule, whatever the particles. -/
theorem C30_more_processes (f : Objective d K) (hf : RowWiseNonempty f) (e : Err)
    (he : f [] = .error e) (p : Nat) (sched : List Nat) (hs : IsSchedule sched p)
    (x : List (Vec d K)) (hx : x.length < p) (h0 : x ≠ []) :
    [] ∈ arraySplit x p ∧ computeObjective f (some (p, sched)) x = .error e ∧
      ∃ l, computeObjective f none x = .ok l := by
  obtain ⟨g, hg⟩ := hf
  have hp : 0 < p := by omega
  obtain ⟨hs1, hs2, hs3⟩ := C30_split x p hp
  have hmem : [] ∈ arraySplit x p := by
    by_contra hc
    have h1 : ∀ (ls : List (List (Vec d K))), [] ∉ ls → ls.length ≤ ls.flatten.length := by
      intro ls
      induction ls with
      | nil => intro _; simp
      | cons a ls ih =>
        intro h
        rw [List.mem_cons, not_or] at h
        have h2 := ih h.2
        have h3 : 0 < a.length := List.length_pos_iff.2 (Ne.symm h.1)
        simp only [List.length_cons, List.flatten_cons, List.length_append]
        omega
    have h2 := h1 _ hc
    rw [hs1, hs2] at h2
    omega
  refine ⟨hmem, ?_, x.map g, hg x h0⟩
  obtain ⟨a, ha, e', he', hr⟩ :=
    (poolMap_spec f (arraySplit x p) sched (by rw [hs2]; exact hs)).2 ⟨[], hmem, e, he⟩
  unfold computeObjective
  dsimp only
  rw [hr]
  by_cases hae : a = []
  · subst hae
    rw [he] at he'
    cases he'
    rfl
  · rw [hg a hae] at he'
    cases he'

/-- C30 for a whole run, without an assumption on the array without rows: with at most as many
processes as particles `optimize(n_processes=p)` returns the same value (or exception) as
`optimize()` and leaves the object in the same state. -/
theorem C30_optimize_enough {n : Nat} [Field K] [LinearOrder K] [Transc K] [FloorRing K]
    (cfg : Config n d K) (f : Nat → Objective d K) (hf : ∀ k, RowWiseNonempty (f k))
    (p : Nat) (hp : 0 < p) (hpn : p ≤ n) (sched : Nat → List Nat)
    (hs : ∀ k, IsSchedule (sched k) p) (iters : Nat) (env : Nat → Draw n d K) (s : Opt n d K) :
    (optimize cfg (evaluator f fun k => some (p, sched k)) iters (some p) env s).2 =
      (optimize cfg (evaluator f fun _ => none) iters none env s).2 ∧
    { (optimize cfg (evaluator f fun k => some (p, sched k)) iters (some p) env s).1 with
        openPools := 0 } =
      { (optimize cfg (evaluator f fun _ => none) iters none env s).1 with openPools := 0 } := by
  choose g hg using hf
  have hlen : ∀ x : Mat n d K, (rowsOf x).length = n := by intro x; simp [rowsOf]
  have hne : ∀ x : Mat n d K, rowsOf x ≠ [] := by
    intro x h
    have := hlen x
    rw [h] at this
    simp only [List.length_nil] at this
    omega
  have h1 : (evaluator f fun _ => none : Nat → Mat n d K → Except Err (Costs n K)) =
      evaluator (fun k x => .ok (x.map (g k))) fun _ => none := by
    funext k x
    unfold evaluator computeObjective
    dsimp only
    rw [hg k _ (hne x)]
  have h2 : (evaluator f fun k => some (p, sched k) : Nat → Mat n d K → Except Err (Costs n K)) =
      evaluator (fun k x => .ok (x.map (g k))) fun k => some (p, sched k) := by
    funext k x
    unfold evaluator
    rw [C30_enough_particles (f k) ⟨g k, hg k⟩ p hp (sched k) (hs k) _ (by rw [hlen]; exact hpn),
      C30_parallel_eq_serial (fun x => .ok (x.map (g k))) ⟨g k, fun _ => rfl⟩ p hp (sched k) (hs k)]
    unfold computeObjective
    dsimp only
    rw [hg k _ (hne x)]
  rw [h1, h2]
  have h := C30_optimize cfg (fun k x => .ok (x.map (g k))) (fun k => ⟨g k, fun _ => rfl⟩) p hp sched
    hs iters env s
  exact ⟨h.1, h.2.1⟩

/-- The hypotheses are met by an objective that raises exactly on the array without rows: two
particles are evaluated by one or two processes, not by three. -/
example : let f : Objective 1 ℚ := fun x => if x.isEmpty then .error .valueError
      else .ok (x.map fun a => XR.fin (a 0))
    RowWiseNonempty f ∧ f [] = .error .valueError ∧ IsSchedule [1, 0] 2 ∧
      IsSchedule [2, 0, 1] 3 := by
  refine ⟨⟨fun a => XR.fin (a 0), fun x hx => ?_⟩, rfl, by decide, by decide⟩
  have : x.isEmpty = false := by simpa using hx
  simp [this]

end PySwarms
