import Verif.Model.Animate
import Verif.Props.Plot
import Verif.Props.Best

/-!
# What the plots show (C76)
-/

set_option linter.unusedSectionVars false

namespace PySwarms

variable {α : Type} {n d : Nat} {K : Type}

/-- A history whose arrays have at least one row and `c` columns. -/
def Columns (c : Nat) (data : List (List (List α))) : Prop :=
  ∀ rows ∈ data, rows ≠ [] ∧ ∀ r ∈ rows, r.length = c

theorem shape1_of {c : Nat} {rows : List (List α)} (h0 : rows ≠ []) (h : ∀ r ∈ rows, r.length = c) :
    shape1 rows = .ok c := by
  cases rows with
  | nil => exact absurd rfl h0
  | cons r rs =>
    have hr := h r (by simp)
    simp only [shape1]
    rw [if_pos, hr]
    rw [List.all_eq_true]
    intro r' hr'
    simp [hr, h r' (by simp [hr'])]

theorem playFrom_spec (isArray : Bool) (data : List (List (List α))) (J : Scatter α → Prop)
    (view : List (List α) → List (List α))
    (step : ∀ i rows plot, data[i]? = some rows → J plot → ∃ plot',
      animate isArray data i plot = .ok plot' ∧ J plot' ∧ plot'.visible = .ok (view rows))
    (m i : Nat) (him : i + m = data.length) (plot : Scatter α) (hJ : J plot) :
    playFrom isArray data (List.range' i m) plot = .ok ((data.drop i).map view) := by
  induction m generalizing i plot with
  | zero => simp [playFrom, ← him]
  | succ m ih =>
    have hi : i < data.length := by omega
    obtain ⟨plot', h1, h2, h3⟩ := step i data[i] plot (List.getElem?_eq_getElem hi) hJ
    rw [List.range'_succ, playFrom, h1]
    simp only
    rw [h3]
    simp only
    rw [ih (i + 1) (by omega) plot' h2]
    simp only
    rw [List.drop_eq_getElem_cons hi, List.map_cons]

theorem animate_some {c : Nat} {data : List (List (List α))} (h : Columns c data) (isArray : Bool)
    {i : Nat} {rows : List (List α)} (hi : data[i]? = some rows) (plot : Scatter α) :
    animate isArray data i plot =
      if c = 2 then .ok { plot with offsets := rows }
      else if isArray then .ok { plot with offsets3d := transpose c rows }
      else .error .attributeError := by
  obtain ⟨h0, h1⟩ := h rows (List.mem_of_getElem? hi)
  unfold animate
  rw [hi]
  simp only [shape1_of h0 h1]

theorem transpose_three {rows : List (List α)} (h : ∀ r ∈ rows, r.length = 3) :
    ∃ xs ys zs, transpose 3 rows = [xs, ys, zs] ∧
      List.zipWith (· :: ·) xs (List.zipWith (fun y z => [y, z]) ys zs) = rows := by
  refine ⟨_, _, _, rfl, ?_⟩
  induction rows with
  | nil => rfl
  | cons r rows ih =>
    have hr := h r (by simp)
    obtain ⟨x, y, z, rfl⟩ := List.length_eq_three.1 hr
    have := ih fun r' h' => h r' (by simp [h'])
    simp only [List.filterMap_cons, List.getElem?_cons_zero, List.getElem?_cons_succ,
      List.zipWith_cons_cons]
    rw [this]

/-- C76: `plot_contour` on a history with two columns shows one frame per iteration, in order, each
with exactly the positions of that iteration. -/
theorem C76_contour (isArray : Bool) (data : List (List (List α))) (h : Columns 2 data) :
    plotContour isArray data = .ok data := by
  unfold plotContour
  rw [List.range_eq_range', playFrom_spec isArray data (fun p => p.dim3 = false) id ?_ _ 0 (by simp) _ rfl]
  · simp
  · intro i rows plot hi hJ
    refine ⟨{ plot with offsets := rows }, ?_, hJ, ?_⟩
    · rw [animate_some h isArray hi, if_pos rfl]
    · simp [Scatter.visible, hJ]

/-- C76: `plot_surface` on an array history with three columns shows one frame per iteration, in
order, each with exactly the points of that iteration. -/
theorem C76_surface (data : List (List (List α))) (h : Columns 3 data) :
    plotSurface true data = .ok data := by
  unfold plotSurface
  rw [List.range_eq_range', playFrom_spec true data (fun p => p.dim3 = true) id ?_ _ 0 (by simp) _ rfl]
  · simp
  · intro i rows plot hi hJ
    refine ⟨{ plot with offsets3d := transpose 3 rows }, ?_, hJ, ?_⟩
    · rw [animate_some h true hi, if_neg (by decide), if_pos rfl]
    · obtain ⟨xs, ys, zs, h1, h2⟩ := transpose_three (h rows (List.mem_of_getElem? hi)).2
      simp only [Scatter.visible, hJ, if_true, h1, h2, id]

/-- C76: the wrong number of columns.  `plot_contour` with a history of arrays that do not have two
columns, and `plot_surface` with two columns, play without an exception and show no point at all;
`plot_surface` with any number of columns other than two and three fails at the first frame.  A
history of nested lists that does not have two columns fails with `AttributeError`. -/
theorem C76_wrong_columns (c : Nat) (data : List (List (List α))) (h : Columns c data) :
    (c ≠ 2 → plotContour true data = .ok (data.map fun _ => [])) ∧
    (c = 2 → ∀ isArray, plotSurface isArray data = .ok (data.map fun _ => [])) ∧
    (c ≠ 2 → c ≠ 3 → data ≠ [] → plotSurface true data = .error .valueError) ∧
    (c ≠ 2 → data ≠ [] → plotSurface false data = .error .attributeError ∧
      plotContour false data = .error .attributeError) := by
  refine ⟨fun hc => ?_, fun hc isArray => ?_, fun h2 h3 hne => ?_, fun hc hne => ?_⟩
  · unfold plotContour
    rw [List.range_eq_range', playFrom_spec true data (fun p => p.dim3 = false ∧ p.offsets = [])
      (fun _ => []) ?_ _ 0 (by simp) _ ⟨rfl, rfl⟩]
    · simp
    · intro i rows plot hi hJ
      refine ⟨{ plot with offsets3d := transpose c rows }, ?_, hJ, ?_⟩
      · rw [animate_some h true hi, if_neg hc, if_pos rfl]
      · simp [Scatter.visible, hJ.1, hJ.2]
  · unfold plotSurface
    rw [List.range_eq_range', playFrom_spec isArray data
      (fun p => p.dim3 = true ∧ p.offsets3d = [[], [], []]) (fun _ => []) ?_ _ 0 (by simp) _ ⟨rfl, rfl⟩]
    · simp
    · intro i rows plot hi hJ
      refine ⟨{ plot with offsets := rows }, ?_, hJ, ?_⟩
      · rw [animate_some h isArray hi, if_pos hc]
      · simp [Scatter.visible, hJ.1, hJ.2]
  · obtain ⟨rows, rest, rfl⟩ := List.exists_cons_of_ne_nil hne
    unfold plotSurface
    rw [List.length_cons, List.range_succ_eq_map, playFrom,
      animate_some h true (i := 0) (rows := rows) rfl, if_neg h2, if_pos rfl]
    have hl : (transpose c rows).length = c := by simp [transpose]
    have : Scatter.visible { dim3 := true, offsets3d := transpose c rows } = .error .valueError := by
      simp only [Scatter.visible, if_true]
      split
      · next h' => rw [h'] at hl; exact absurd hl.symm h3
      · rfl
    simp only
    rw [this]
  · obtain ⟨rows, rest, rfl⟩ := List.exists_cons_of_ne_nil hne
    unfold plotSurface plotContour
    rw [List.length_cons, List.range_succ_eq_map, playFrom, playFrom,
      animate_some h false (i := 0) (rows := rows) rfl, animate_some h false (i := 0) (rows := rows) rfl,
      if_neg hc, if_neg hc]
    exact ⟨rfl, rfl⟩

section
variable [Field K] [LinearOrder K] [IsStrictOrderedRing K] [Transc K] [FloorRing K]

/-- C76: the documented workflow.  Run an optimizer in two dimensions, pass its `pos_history` through
`compute_history_3d` and plot the result with `plot_surface`: frame `t` shows, for every particle,
the position evaluated in iteration `t` at the height of the cost the run computed for it.
`plot_contour` of `pos_history` shows the same positions from above. -/
theorem C76_workflow (hn : 0 < n) (cfg : Config n 2 K) (r1 r2 : InitDraw n 2 K) (s0 s1 : Opt n 2 K)
    (hc : construct cfg r1 r2 = .ok s0) (f : Objective 2 K) (g : Vec 2 K → XR K)
    (hf : ∀ x, f x = .ok (x.map g)) (pools : Nat → Option (Nat × List Nat))
    (hpools : ∀ k p s, pools k = some (p, s) → 0 < p ∧ IsSchedule s p)
    (iters : Nat) (nproc : Option Nat) (env : Nat → Draw n 2 K) (v : XR K × Vec 2 K)
    (hrun : optimize cfg (evaluator (fun _ => f) pools) iters nproc env s0 = (s1, .ok v))
    (hne : s1.posHistory ≠ []) (pool : PlotPool) (hp : GoodPool pool) :
    ∃ hist, computeHistory3d f (s1.posHistory.map rowsOf) pool = (0, .ok hist) ∧
      plotSurface true (hist.map fun rows => rows.map Row3.columns) =
        .ok (s1.evals.map fun e => (List.finRange n).map fun i =>
          [.fin (e.1 i 0), .fin (e.1 i 1), e.2 i]) ∧
      plotContour true (s1.posHistory.map fun x => (List.finRange n).map fun i => [x i 0, x i 1]) =
        .ok (s1.evals.map fun e => (List.finRange n).map fun i => [e.1 i 0, e.1 i 1]) := by
  refine ⟨_, C48_history_of_run cfg r1 r2 s0 s1 hc f g hf pools hpools iters nproc env v hrun hne
    pool hp, ?_, ?_⟩
  · rw [C76_surface]
    · simp [Row3.columns, Function.comp_def]
    · intro rows hrows
      simp only [List.map_map, List.mem_map, Function.comp_apply] at hrows
      obtain ⟨e, -, rfl⟩ := hrows
      constructor
      · intro h0
        have := congrArg List.length h0
        simp at this; omega
      · intro r hr
        simp only [List.mem_map, List.mem_finRange, true_and] at hr
        obtain ⟨_, ⟨i, rfl⟩, rfl⟩ := hr
        rfl
  · rw [C76_contour]
    · have hal := C28_aligned cfg r1 r2 s0 hc
        [.optimize (evaluator (fun _ => f) pools) iters nproc env] ⟨⟨v, by simp only [hrun]⟩, trivial⟩
      simp only [runOps, List.foldl_cons, List.foldl_nil, stepOp, hrun] at hal
      rw [← hal, List.map_map]
      rfl
    · intro rows hrows
      simp only [List.mem_map] at hrows
      obtain ⟨x, -, rfl⟩ := hrows
      constructor
      · intro h0
        have := congrArg List.length h0
        simp at this; omega
      · intro r hr
        simp only [List.mem_map, List.mem_finRange, true_and] at hr
        obtain ⟨i, rfl⟩ := hr
        rfl

/-- C76: the cost line of an optimizer with Star topology.  It has one point per evaluation since the
last reset, at `x = 0, 1, …`; the point at `x = t` has the height of the smallest cost among the first
`t + 1` evaluations, so the line never rises. -/
theorem C76_cost_line (hn : 0 < n) (cfg : Config n d K) (hk : cfg.kind.isStar) (s : Opt n d K)
    (h : Reachable cfg s) :
    (plotCost s.costHistory).length = s.evals.length ∧
    (∀ t, t < s.evals.length → ∃ y, (plotCost s.costHistory)[t]? = some (t, y) ∧
      IsMinOf y (allCosts (s.evals.take (t + 1)))) ∧
    ∀ t u x y, t ≤ u → (t, x) ∈ plotCost s.costHistory → (u, y) ∈ plotCost s.costHistory →
      XR.lt x y = false := by
  obtain ⟨hlen, hmin⟩ := C04_cost_history_running_min hn cfg hk s h
  have hget : ∀ t (ht : t < s.costHistory.length),
      (plotCost s.costHistory)[t]? = some (t, s.costHistory[t]) := by
    intro t ht
    simp [plotCost, List.zip, List.getElem?_zipWith, ht]
  have hmem : ∀ t x, (t, x) ∈ plotCost s.costHistory → s.costHistory[t]? = some x := by
    intro t x hx
    obtain ⟨k, hk', he⟩ := List.mem_iff_getElem.1 hx
    have hk'' : k < s.costHistory.length := by simpa [plotCost] using hk'
    have := hget k hk''
    rw [List.getElem?_eq_getElem hk', he] at this
    simp only [Option.some.injEq, Prod.mk.injEq] at this
    obtain ⟨rfl, rfl⟩ := this
    exact List.getElem?_eq_getElem hk''
  refine ⟨by simp [plotCost, hlen], fun t ht => ?_, fun t u x y htu hx hy => ?_⟩
  · rw [← hlen] at ht
    exact ⟨_, hget t ht, hmin t ht⟩
  · obtain ⟨ht, rfl⟩ := List.getElem?_eq_some_iff.1 (hmem t x hx)
    obtain ⟨hu, rfl⟩ := List.getElem?_eq_some_iff.1 (hmem u y hy)
    exact C04_cost_history_antitone hn cfg hk s h t u htu hu

end

/-! ## Examples -/

/-- Two iterations of two particles, with two and with three columns. -/
example : Columns 2 [[[(0 : ℚ), 1], [2, 3]], [[1, 1], [2, 2]]] ∧
    Columns 3 [[[(0 : ℚ), 1, 5], [2, 3, 6]], [[1, 1, 7], [2, 2, 8]]] := by
  constructor <;> intro rows h <;>
    simp only [List.mem_cons, List.not_mem_nil, or_false] at h <;>
    rcases h with rfl | rfl <;> simp

example : (plotSurface true [[[(0 : ℚ), 1, 5], [2, 3, 6]], [[1, 1, 7], [2, 2, 8]]] : Except Err _) =
    .ok [[[0, 1, 5], [2, 3, 6]], [[1, 1, 7], [2, 2, 8]]] ∧
    (plotContour true [[[(0 : ℚ), 1, 5], [2, 3, 6]], [[1, 1, 7], [2, 2, 8]]] : Except Err _) =
    .ok [[], []] := by
  constructor <;> rfl

open Ex in
/-- The hypotheses of `C76_workflow` and `C76_cost_line` hold in a real run. -/
example : (match construct (gcfg 3 2) (init 3 2) (init 3 2) with
    | .ok s0 => match optimize (gcfg 3 2) (evaluator (fun _ => Ex.planeObj) fun _ => some (2, [1, 0]))
        3 (some 2) (fun _ => draw 3 2) s0 with
      | (s1, .ok _) => decide (s1.posHistory.length = 3 ∧ (plotCost s1.costHistory).map Prod.fst = [0, 1, 2])
      | _ => false
    | _ => false) = true ∧ (gcfg 3 2).kind.isStar := by
  refine ⟨by decide +kernel, ?_⟩
  simp [gcfg, Kind.isStar]

end PySwarms
