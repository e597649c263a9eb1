import Verif.Model.Plot

/-!
# Animations and cost plots

* `plot_cost_history`          – utils/plotters/plotters.py:84-137
* `plot_contour`, `plot_surface` – utils/plotters/plotters.py:142-245, 248-390
* `_animate`                   – utils/plotters/plotters.py:393-402

matplotlib is represented by what it shows for the scatter object `plot` after each frame.  Styling
(designer, title, limits, marks), the mesh drawn below the points (`Model/Plot.lean`) and timing
(animator) are not part of this model.  Arrays are lists of rows; a history is a list of arrays.
-/

namespace PySwarms

variable {α : Type}

/-- The scatter object made by `ax.scatter(x=[], y=[])` (plotters.py:229) or
`ax.scatter(xs=[], ys=[], zs=[])` (plotters.py:374).  A flat scatter draws `offsets`; a 3D scatter
projects the three arrays `offsets3d` at every drawing and ignores `offsets`. -/
structure Scatter (α : Type) where
  dim3 : Bool
  offsets : List (List α) := []
  offsets3d : List (List α) := [[], [], []]

/-- `np.array(current_pos).shape[1]` (plotters.py:398): the common length of the rows.  Ragged or
empty lists have no second dimension: `IndexError`. -/
def shape1 (rows : List (List α)) : Except Err Nat :=
  match rows with
  | [] => .error .indexError
  | r :: rs => if rs.all fun r' => r'.length == r.length then .ok r.length else .error .indexError

/-- `current_pos.T` (plotters.py:401) as the list of its rows. -/
def transpose (cols : Nat) (rows : List (List α)) : List (List α) :=
  (List.range cols).map fun j => rows.filterMap fun r => r[j]?

/-- `_animate(i, data, plot)` (plotters.py:393-402).  `isArray` says whether `data[i]` is a NumPy
array: a nested list has no attribute `T`. -/
def animate (isArray : Bool) (data : List (List (List α))) (i : Nat) (plot : Scatter α) :
    Except Err (Scatter α) :=
  match data[i]? with
  | none => .error .indexError
  | some rows =>
    match shape1 rows with
    | .error e => .error e
    | .ok c =>
      if c = 2 then .ok { plot with offsets := rows }
      else if isArray then .ok { plot with offsets3d := transpose c rows }
      else .error .attributeError

/-- What a scatter object shows, one list of coordinates per point.  Drawing a 3D scatter unpacks
`xs, ys, zs = self._offsets3d`, a `ValueError` for any other number of arrays (drawing of the
object of plotters.py:229 and 374 by matplotlib). -/
def Scatter.visible (plot : Scatter α) : Except Err (List (List α)) :=
  if plot.dim3 then
    match plot.offsets3d with
    | [xs, ys, zs] => .ok (List.zipWith (· :: ·) xs (List.zipWith (fun y z => [y, z]) ys zs))
    | _ => .error .valueError
  else .ok plot.offsets

/-- `FuncAnimation` (plotters.py:232-240, 377-385): calls `_animate` for each frame number and draws.
The result lists what is visible in each frame. -/
def playFrom (isArray : Bool) (data : List (List (List α))) :
    List Nat → Scatter α → Except Err (List (List (List α)))
  | [], _ => .ok []
  | i :: is, plot =>
    match animate isArray data i plot with
    | .error e => .error e
    | .ok plot' =>
      match plot'.visible with
      | .error e => .error e
      | .ok v =>
        match playFrom isArray data is plot' with
        | .error e => .error e
        | .ok vs => .ok (v :: vs)

/-- `plot_contour(pos_history)` (plotters.py:142-245) as the frames it shows: `frames=range(n_iters)`
with `n_iters = len(pos_history)`. -/
def plotContour (isArray : Bool) (data : List (List (List α))) :
    Except Err (List (List (List α))) :=
  playFrom isArray data (List.range data.length) { dim3 := false }

/-- `plot_surface(pos_history)` (plotters.py:248-390) as the frames it shows. -/
def plotSurface (isArray : Bool) (data : List (List (List α))) :
    Except Err (List (List (List α))) :=
  playFrom isArray data (List.range data.length) { dim3 := true }

/-- `plot_cost_history(cost_history)` (plotters.py:84-137): the points of
`ax.plot(np.arange(iters), cost_history)`. -/
def plotCost (hist : List α) : List (Nat × α) := (List.range hist.length).zip hist

/-- The rows of the result of `compute_history_3d` for two-dimensional positions as an array with
three columns (formatters.py:212). -/
def Row3.columns {K : Type} (r : Row3 2 K) : List (XR K) := [.fin (r.pos 0), .fin (r.pos 1), r.fitness]

end PySwarms
