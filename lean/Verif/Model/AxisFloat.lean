import Verif.Model.Axis
import Verif.Model.HistogramFloat

/-!
# Model of axes with rounding

`Axis._find_nearest_index` and `Axis._value_to_index_linear` (`postpic/datahandling.py:310-331`) and `Axis(extent=..., n=...)`
(`:117-230`) once more, each operation followed by the rounding `rnd`, a parameter. Comparisons are exact. The arguments are finite numbers.
-/

set_option autoImplicit false

namespace Postpic.Axes

open Postpic Postpic.Histogram

variable {K : Type} [Field K] [LinearOrder K] [FloorRing K]

/-- `np.fabs(value - g)`. `datahandling.py:328`. -/
def distanceF (rnd : K → Dbl K) (v g : K) : Dbl K := (Dbl.sub rnd (.fin v) (.fin g)).abs

/-- `_find_nearest_index`. `datahandling.py:315-331`. -/
def Axis.findNearestIndexF (rnd : K → Dbl K) (ax : Axis K) (v : K) : Res ℕ := do
  let idx ← ax.search v
  if 0 < idx then
    if idx = ax.len then return idx - 1
    else match ax.grid[idx - 1]?, ax.grid[idx]? with
      | some a, some b => if (distanceF rnd v a).lt (distanceF rnd v b) then return idx - 1 else return idx
      | _, _ => throw .indexError
  else return idx

/-- `_value_to_index_linear`: `(value-a)/(b-a) * lg - 0.5`. A difference `b-a` of 0 is not modelled faithfully (a warning of numpy, an
exception here). `datahandling.py:310-313`. -/
def Axis.valueToIndexLinearF (rnd : K → Dbl K) (ax : Axis K) (v : K) : Res (Dbl K) := do
  let q ← Dbl.div rnd (Dbl.sub rnd (.fin v) (.fin ax.extent.1)) (Dbl.sub rnd (.fin ax.extent.2) (.fin ax.extent.1))
  return Dbl.sub rnd (Dbl.mul rnd q (.fin ax.len)) half

/-! ### Axes from extent and number of points -/

/-- `x / n` for a positive integer `n`. -/
def overF (rnd : K → Dbl K) (n : ℕ) : Dbl K → Dbl K
  | .fin x => rnd (x / n)
  | .inf s => .inf s
  | .nan => .nan

/-- `np.linspace(a, b, m)`: `arange(m) * step + a`, where `step = (b - a) / (m - 1)`, and the last of several values is replaced by `b`.
If `step` is 0, the integers are divided by `m - 1` first. (numpy, `_core/function_base.py`.) -/
def linspaceF (rnd : K → Dbl K) (a b : K) (m : ℕ) : List (Dbl K) :=
  let delta := Dbl.sub rnd (.fin b) (.fin a)
  let step := overF rnd (m - 1) delta
  (List.range m).map fun i =>
    if i + 1 = m ∧ 1 < m then .fin b
    else Dbl.add rnd (if m ≤ 1 then Dbl.mul rnd (.fin i) delta
      else if step = .fin 0 then Dbl.mul rnd (overF rnd (m - 1) (.fin i)) delta
      else Dbl.mul rnd (.fin i) step) (.fin a)

/-- The grid from the nodes; `centers` is the spline. `datahandling.py:192-202`. -/
def gridOfNodesF (rnd : K → Dbl K) (centers : List (Dbl K) → List (Dbl K)) (nodes : List (Dbl K)) : Res (List (Dbl K)) :=
  if 3 < nodes.length then .ok (centers nodes) else
    match nodes with
    | [] => .error .valueError
    | [x] => .ok [Dbl.mul rnd x half, Dbl.mul rnd x half]
    | _ => .ok (List.zipWith (fun a b => Dbl.add rnd (Dbl.mul rnd a half) (Dbl.mul rnd b half)) nodes nodes.tail)

/-- `Axis(extent=(e0, e1), n=n)`: nodes and grid. `datahandling.py:148-160, 192-230`. -/
def axisFromExtentF (rnd : K → Dbl K) (centers : List (Dbl K) → List (Dbl K)) (e0 e1 : K) (n : ℕ) : Res (List (Dbl K) × List (Dbl K)) := do
  let nodes := linspaceF rnd e0 e1 (n + 1)
  let grid ← gridOfNodesF rnd centers nodes
  if nodes.head? ≠ some (.fin e0) ∨ nodes.getLast? ≠ some (.fin e1) then throw .valueError
  if n ≠ grid.length then throw .valueError
  return (nodes, grid)

end Postpic.Axes
