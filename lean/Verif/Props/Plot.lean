import Verif.Model.Plot
import Verif.Props.Objective
import Verif.Props.Stopping
import Mathlib.Data.Rat.Floor

/-! # C48: meshes and histories for plotting -/

set_option linter.unusedSectionVars false

namespace PySwarms

variable {n d : Nat} {K : Type}

/-- Entry `(i, j)` of a two-dimensional array, `none` outside its shape. -/
def entry {α : Type} (a : List (List α)) (i j : Nat) : Option α := a[i]?.bind (·[j]?)

/-- The pool argument is usable: at least one process, and in each `pool.map` every task completes
exactly once. -/
def GoodPool : PlotPool → Prop
  | none => True
  | some (p, sched) => 0 < p ∧ ∀ k, IsSchedule (sched k) p

theorem computeObjective_rowWise (f : Objective d K) (g : Vec d K → XR K)
    (hf : ∀ x, f x = .ok (x.map g)) (pool : PlotPool) (hp : GoodPool pool) (k : Nat)
    (x : List (Vec d K)) : computeObjective f (poolAt pool k) x = .ok (x.map g) := by
  cases pool with
  | none => exact hf x
  | some q =>
    obtain ⟨p, sched⟩ := q
    exact (C30_parallel_eq_serial f ⟨g, hf⟩ p hp.1 (sched k) (hp.2 k) x).trans (hf x)

theorem badPlotPool_good {pool : PlotPool} (hp : GoodPool pool) : badPlotPool pool = false := by
  cases pool with
  | none => rfl
  | some q =>
    obtain ⟨p, sched⟩ := q
    simp only [badPlotPool, beq_eq_false_iff_ne]
    exact hp.1.ne'

section
variable [Field K] [LinearOrder K] [IsStrictOrderedRing K] [FloorRing K]

/-- C48: the grid coordinates are exactly the multiples of the step from the lower limit that are
below the upper limit, in order. -/
theorem C48_arange (lo hi delta : K) (hd : 0 < delta) :
    ∃ x, arange lo hi delta = .ok x ∧ ∀ i : Nat,
      x[i]? = if lo + (i : K) * delta < hi then some (lo + (i : K) * delta) else none := by
  refine ⟨_, by unfold arange; rw [if_neg hd.ne'], fun i => ?_⟩
  rw [List.getElem?_map]
  have hiff : lo + (i : K) * delta < hi ↔ i < ⌈(hi - lo) / delta⌉.toNat := by
    rw [Int.lt_toNat, Int.lt_ceil, lt_div_iff₀ hd]
    push_cast
    constructor <;> intro h <;> linarith
  split
  · next h => rw [List.getElem?_range (hiff.1 h)]; rfl
  · next h =>
    rw [List.getElem?_eq_none (by rw [List.length_range]; exact not_lt.1 (fun h' => h (hiff.2 h')))]
    rfl

/-- The pairs `(x_j, y_i)` in the order of the flattened arrays. -/
theorem xypairs_eq (x y : List K) :
    List.zipWith (fun a b => (![a, b] : Vec 2 K)) (y.map fun _ => x).flatten
      (y.map fun b => x.map fun _ => b).flatten =
      (y.map fun b => x.map fun a => ![a, b]).flatten := by
  induction y with
  | nil => rfl
  | cons b y ih =>
    simp only [List.map_cons, List.flatten_cons]
    rw [List.zipWith_append (by simp), ih]
    congr 1
    clear ih
    induction x with
    | nil => rfl
    | cons a x ihx => rw [List.map_cons, List.zipWith_cons_cons, ihx, List.map_cons]

theorem reshape_flatten {α : Type} (rows : List (List α)) (cols : Nat)
    (h : ∀ r ∈ rows, r.length = cols) : reshape rows.flatten rows.length cols = .ok rows := by
  unfold reshape
  have hlen : ∀ l : List (List α), (∀ r ∈ l, r.length = cols) → l.flatten.length = l.length * cols := by
    intro l hl
    induction l with
    | nil => simp
    | cons r l ih =>
      rw [List.flatten_cons, List.length_append, hl r (by simp),
        ih (fun r hr => hl r (by simp [hr])), List.length_cons, Nat.add_mul]
      omega
  rw [if_pos (hlen rows h)]
  congr 1
  clear hlen
  induction rows with
  | nil => rfl
  | cons r rows ih =>
    have hr := h r (by simp)
    rw [List.length_cons, List.range_succ_eq_map, List.map_cons, List.map_map]
    congr 1
    · rw [Nat.zero_mul, List.drop_zero, List.flatten_cons, ← hr, List.take_left]
    · conv_rhs => rw [← ih (fun r hr => h r (by simp [hr]))]
      apply List.map_congr_left
      intro i _
      simp only [Function.comp]
      congr 1
      rw [Nat.succ_mul, Nat.add_comm, ← List.drop_drop, List.flatten_cons, ← hr, List.drop_left]

/-- C48: for a row-wise function and a positive step, with or without processes, the mesh exists, no
pool stays open, and at row `i`, column `j` the three arrays hold `x_j`, `y_i` and the value of the
function at `(x_j, y_i)`, where `x_j = x₀ + j δ`, `y_i = y₀ + i δ` run over the values below the
upper limits. -/
theorem C48_mesh (f : Objective 2 K) (g : Vec 2 K → XR K) (hf : ∀ x, f x = .ok (x.map g))
    (xlim ylim : K × K) (delta : K) (hd : 0 < delta) (pool : PlotPool) (hp : GoodPool pool) :
    ∃ xx yy zz, mesh f xlim ylim delta pool = (0, .ok (xx, yy, zz)) ∧
      ∀ i j : Nat,
        let a := xlim.1 + (j : K) * delta
        let b := ylim.1 + (i : K) * delta
        if a < xlim.2 ∧ b < ylim.2 then
          entry xx i j = some a ∧ entry yy i j = some b ∧ entry zz i j = some (g ![a, b])
        else entry xx i j = none ∧ entry yy i j = none ∧ entry zz i j = none := by
  obtain ⟨x, hx, hxi⟩ := C48_arange xlim.1 xlim.2 delta hd
  obtain ⟨y, hy, hyi⟩ := C48_arange ylim.1 ylim.2 delta hd
  refine ⟨y.map fun _ => x, y.map fun b => x.map fun _ => b,
    y.map fun b => x.map fun a => g ![a, b], ?_, ?_⟩
  · unfold mesh
    rw [hx, hy]
    dsimp only
    rw [badPlotPool_good hp, xypairs_eq, computeObjective_rowWise f g hf pool hp]
    simp only [Bool.false_eq_true, if_false]
    have hmap : (List.map g (List.map (fun b => List.map (fun a => ![a, b]) x) y).flatten) =
        (y.map fun b => x.map fun a => g ![a, b]).flatten := by
      rw [List.map_flatten, List.map_map]
      congr 1
      apply List.map_congr_left
      intro b _
      simp [Function.comp_def]
    rw [hmap]
    have := reshape_flatten (y.map fun b => x.map fun a => g ![a, b]) x.length (by
      intro r hr
      rw [List.mem_map] at hr
      obtain ⟨b, _, rfl⟩ := hr
      simp)
    rw [List.length_map] at this
    rw [this]
  · intro i j
    dsimp only
    unfold entry
    simp only [List.getElem?_map, hyi]
    by_cases h2 : ylim.1 + (i : K) * delta < ylim.2
    · simp only [if_pos h2, Option.map_some, Option.bind_some, List.getElem?_map, hxi]
      by_cases h1 : xlim.1 + (j : K) * delta < xlim.2
      · simp [h1, h2]
      · simp [h1]
    · simp [h2]

/-- C48: an exception of the function propagates, and then a pool created for the mesh is never
closed. -/
theorem C48_mesh_exception (f : Objective 2 K) (xlim ylim : K × K) (delta : K) (hd : delta ≠ 0)
    (e : Err) (hf : ∀ x, f x = .error e) (pool : PlotPool) (hp : GoodPool pool) :
    mesh f xlim ylim delta pool = (if pool.isSome then 1 else 0, .error e) := by
  unfold mesh arange
  rw [if_neg hd, if_neg hd]
  dsimp only
  rw [badPlotPool_good hp]
  simp only [Bool.false_eq_true, if_false]
  have : ∀ x, computeObjective f (poolAt pool 0) x = .error e := by
    intro x
    cases pool with
    | none => exact hf x
    | some q =>
      obtain ⟨p, sched⟩ := q
      obtain ⟨-, hlen, -⟩ := C30_split x p hp.1
      have hs := (poolMap_spec f (arraySplit x p) (sched 0) (by rw [hlen]; exact hp.2 0)).2
      have hne : arraySplit x p ≠ [] := by
        intro h0
        rw [h0] at hlen
        exact hp.1.ne hlen
      obtain ⟨c, hc⟩ := List.exists_mem_of_ne_nil _ hne
      obtain ⟨a, -, e', he', hm⟩ := hs ⟨c, hc, e, hf c⟩
      rw [hf a] at he'
      cases he'
      unfold computeObjective poolAt
      dsimp only [Option.map_some]
      rw [hm]
  rw [this]

end

/-! ## compute_history_3d -/

theorem fitnessFrom_rowWise (f : Objective d K) (g : Vec d K → XR K)
    (hf : ∀ x, f x = .ok (x.map g)) (pool : PlotPool) (hp : GoodPool pool) (k : Nat)
    (hist : List (List (Vec d K))) :
    fitnessFrom f pool k hist = .ok (hist.map (List.map g)) := by
  induction hist generalizing k with
  | nil => rfl
  | cons x xs ih =>
    unfold fitnessFrom
    rw [computeObjective_rowWise f g hf pool hp, ih]
    rfl

/-- C48: for a row-wise function and a history of equally many particles per iteration, with or
without processes, `compute_history_3d` keeps every recorded position, in place, and appends to it
the value of the function at that position. -/
theorem C48_history (f : Objective d K) (g : Vec d K → XR K) (hf : ∀ x, f x = .ok (x.map g))
    (hist : List (List (Vec d K))) (m : Nat) (hne : hist ≠ []) (hm : ∀ x ∈ hist, x.length = m)
    (pool : PlotPool) (hp : GoodPool pool) :
    computeHistory3d f hist pool =
      (0, .ok (hist.map fun x => x.map fun a => { pos := a, fitness := g a })) := by
  unfold computeHistory3d
  rw [badPlotPool_good hp, fitnessFrom_rowWise f g hf pool hp]
  simp only [Bool.false_eq_true, if_false]
  rw [if_pos]
  · congr 2
    rw [List.zipWith_map_right, List.zipWith_self]
    apply List.map_congr_left
    intro x _
    rw [List.zipWith_map_right, List.zipWith_self]
  · refine ⟨hne, ?_, ?_⟩
    · intro x hx
      rw [hm x hx]
      cases hist with
      | nil => cases hx
      | cons y ys => exact (hm y (by simp)).symm
    · rw [List.map_map]
      apply List.map_congr_left
      intro x _
      simp

section
variable [Field K] [LinearOrder K] [IsStrictOrderedRing K] [Transc K] [FloorRing K]

theorem evaluator_rowWise (f : Objective d K) (g : Vec d K → XR K) (hf : ∀ x, f x = .ok (x.map g))
    (pools : Nat → Option (Nat × List Nat))
    (hp : ∀ k p s, pools k = some (p, s) → 0 < p ∧ IsSchedule s p) (k : Nat) (x : Mat n d K) :
    evaluator (fun _ => f) pools k x = .ok fun i => g (x i) := by
  have h1 : computeObjective f (pools k) (rowsOf x) = .ok ((rowsOf x).map g) := by
    rcases hk : pools k with _ | ⟨p, s⟩
    · exact hf _
    · obtain ⟨a, b⟩ := hp k p s hk
      exact (C30_parallel_eq_serial f ⟨g, hf⟩ p a s b _).trans (hf _)
  unfold evaluator
  rw [h1]
  unfold toCosts rowsOf
  simp

/-- C48: the history of a run.  After a call of `optimize` on a new optimizer has returned,
`compute_history_3d` on its `pos_history` lists, iteration by iteration and particle by particle,
exactly the evaluated positions with the costs the run itself computed (for a row-wise objective,
with or without processes on either side). -/
theorem C48_history_of_run (cfg : Config n d K) (r1 r2 : InitDraw n d K) (s0 s1 : Opt n d K)
    (hc : construct cfg r1 r2 = .ok s0) (f : Objective d K) (g : Vec d K → XR K)
    (hf : ∀ x, f x = .ok (x.map g)) (pools : Nat → Option (Nat × List Nat))
    (hpools : ∀ k p s, pools k = some (p, s) → 0 < p ∧ IsSchedule s p)
    (iters : Nat) (nproc : Option Nat) (env : Nat → Draw n d K) (v : XR K × Vec d K)
    (hrun : optimize cfg (evaluator (fun _ => f) pools) iters nproc env s0 = (s1, .ok v))
    (hne : s1.posHistory ≠ []) (pool : PlotPool) (hp : GoodPool pool) :
    computeHistory3d f (s1.posHistory.map rowsOf) pool =
      (0, .ok (s1.evals.map fun xc =>
        (List.finRange n).map fun i => { pos := xc.1 i, fitness := xc.2 i })) := by
  have hal := C28_aligned cfg r1 r2 s0 hc [.optimize (evaluator (fun _ => f) pools) iters nproc env]
    ⟨⟨v, by simp only [hrun]⟩, trivial⟩
  simp only [runOps, List.foldl_cons, List.foldl_nil, stepOp, hrun] at hal
  have hlog : ∀ xc ∈ s1.evals, ∀ i, xc.2 i = g (xc.1 i) := by
    have hI := optimize_inv cfg (evaluator (fun _ => f) pools) iters nproc env
      (fun s => ∀ xc ∈ s.evals, ∀ i, xc.2 i = g (xc.1 i)) (fun s _ _ _ h => h) (fun s h => h) (by
        intro i q s hs
        refine iterate_inv cfg _ (env i) iters i q
          (fun s => ∀ xc ∈ s.evals, ∀ i, xc.2 i = g (xc.1 i)) ?_ (fun s t h => h)
          (fun s t b h => h) ?_ s hs
        · intro s c h hev xc hxc
          rw [evaluator_rowWise f g hf pools hpools] at hev
          cases hev
          simp only [recordEval, List.mem_append, List.mem_singleton] at hxc
          rcases hxc with h' | rfl
          · exact h xc h'
          · intro i; rfl
        · intro s h
          have := (moveSwarm_frame cfg (env i) iters i s).2.2.2.2.2.2.2.2.2.2.2.1
          rw [this]
          exact h) s0 (by
        obtain ⟨sw, -, rfl⟩ := construct_ok cfg r1 r2 s0 hc
        intro xc h
        cases h)
    rw [hrun] at hI
    exact hI
  rw [C48_history f g hf _ n (by simpa using hne) (by
    intro x hx
    rw [List.mem_map] at hx
    obtain ⟨m, _, rfl⟩ := hx
    simp [rowsOf]) pool hp, ← hal, List.map_map, List.map_map]
  congr 2
  apply List.map_congr_left
  intro xc hxc
  simp only [Function.comp, rowsOf, List.map_map]
  apply List.map_congr_left
  intro i _
  simp only [Function.comp]
  rw [hlog xc hxc i]

end

/-! ## Examples -/

section
open Ex

/-- `x - 2 y`, row by row. -/
def Ex.planeObj : Objective 2 ℚ := fun x => .ok (x.map fun a => .fin (a 0 - 2 * a 1))

/-- A mesh of three columns and two rows, with two processes that finish in reverse order. -/
example : (match mesh Ex.planeObj (0, 3 / 2) (0, 1) (1 / 2) (some (2, fun _ => [1, 0])) with
    | (k, .ok (xx, yy, zz)) => decide (k = 0 ∧ xx = [[0, 1 / 2, 1], [0, 1 / 2, 1]] ∧
        yy = [[0, 0, 0], [1 / 2, 1 / 2, 1 / 2]] ∧
        zz = [[.fin 0, .fin (1 / 2), .fin 1], [.fin (-1), .fin (-1 / 2), .fin 0]])
    | _ => false) = true := by decide +kernel

/-- The hypotheses of `C48_mesh` hold there. -/
example : GoodPool (some (2, fun _ => [1, 0])) := ⟨by decide, fun _ => (by decide : IsSchedule [1, 0] 2)⟩

/-- A failing function with a pool leaves one pool open. -/
example : (mesh (fun _ => .error (.user 7) : Objective 2 ℚ) (0, 1) (0, 1) (1 / 2)
    (some (2, fun _ => [1, 0]))).1 = 1 := by decide +kernel

/-- The history of a real run satisfies the hypotheses of `C48_history_of_run`. -/
example : (match construct (gcfg 3 2) (init 3 2) (init 3 2) with
    | .ok s0 => match optimize (gcfg 3 2) (evaluator (fun _ => Ex.planeObj) fun _ => some (2, [1, 0]))
        3 (some 2) (fun _ => draw 3 2) s0 with
      | (s1, .ok _) => decide (s1.posHistory.length = 3) &&
          (match computeHistory3d Ex.planeObj (s1.posHistory.map rowsOf) none with
            | (k, .ok r) => decide (k = 0 ∧ r.map List.length = [3, 3, 3])
            | _ => false)
      | _ => false
    | _ => false) = true := by decide +kernel

end

end PySwarms
