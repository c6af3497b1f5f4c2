import Mathlib.Algebra.Order.Field.Basic
import Mathlib.Algebra.BigOperators.Group.List.Basic
import Mathlib.Algebra.Order.Group.Unbundled.Abs
import Verif.Py.Err
import Verif.Py.Slice

/-!
# Model of `Axis`

`postpic/datahandling.py:96-462`, `postpic/helper.py:356-377`. Coordinates are elements of an
ordered field (no rounding). Arguments which are not one dimensional arrays are not modelled.

`scipy.interpolate.UnivariateSpline` (used for more than three points) is not part of the
repository; it is represented by the two functions of `Splines`, about which the theorems make
explicit assumptions.
-/

set_option autoImplicit false

namespace Postpic.Axes

open Postpic

/-- The interpolating splines used in `Axis.__init__`: the values half way between the points of a
grid (`datahandling.py:168-173`), and the values half way between nodes (`:195-199`). -/
structure Splines (K : Type) where
  inner : List K → List K
  centers : List K → List K

/-- An axis object. `datahandling.py:117-230`. -/
structure Axis (K : Type) where
  name : String
  unit : String
  gridNode : List K
  grid : List K
  extent : K × K
  deriving DecidableEq

/-- Keyword arguments of `Axis(...)`. -/
structure AxisArgs (K : Type) where
  name : String := ""
  unit : String := ""
  gridNode : Option (List K) := none
  grid : Option (List K) := none
  extent : Option (K × K) := none
  n : Option ℤ := none

variable {K : Type} [Field K] [LinearOrder K]

/-- `helper.monotonicity(l) == 1`: all differences are positive. `helper.py:371-372`. -/
def increasing : List K → Bool
  | a :: b :: l => decide (a < b) && increasing (b :: l)
  | _ => true

/-- All differences are negative. `helper.py:373-374`. -/
def decreasing : List K → Bool
  | a :: b :: l => decide (b < a) && decreasing (b :: l)
  | _ => true

/-- `helper.monotonicity`. `helper.py:360-375`. -/
def monotonicity (l : List K) : ℤ :=
  if increasing l then 1 else if decreasing l then -1 else 0

/-- `0.5*(l[i] + l[i+1])` for all neighbours. -/
def mids (l : List K) : List K := List.zipWith (fun a b => (a + b) / 2) l l.tail

/-- `np.linspace(a, b, m)`. -/
def linspace (a b : K) (m : ℕ) : List K :=
  (List.range m).map fun (i : ℕ) => a + (i : K) * ((b - a) / ((m - 1 : ℕ) : K))

/-- The inner nodes. `datahandling.py:168-175`. -/
def innerNodes (spl : Splines K) (grid : List K) : List K :=
  if 3 < grid.length then spl.inner grid else mids grid

/-- Nodes from the grid. `datahandling.py:166-190`. -/
def nodesOfGrid (spl : Splines K) (grid : List K) (extent : Option (K × K)) : Res (List K) :=
  match grid with
  | [] => .error .valueError
  | g0 :: _ =>
    let gl := grid.getLast?.getD g0
    let inner := innerNodes spl grid
    match extent with
    | some (e0, e1) =>
      if g0 ≤ e0 ∨ e1 ≤ gl then .error .valueError else .ok (e0 :: inner ++ [e1])
    | none =>
      if 1 < grid.length then
        .ok ((g0 + (g0 - inner.head?.getD 0)) :: inner ++ [gl + (gl - inner.getLast?.getD 0)])
      else .ok ((g0 - 1 / 2) :: inner ++ [g0 + 1 / 2])

/-- Grid from the nodes; for a single node `np.convolve(..., mode='valid')` returns two values.
`datahandling.py:192-202`. -/
def gridOfNodes (spl : Splines K) (nodes : List K) : Res (List K) :=
  if 3 < nodes.length then .ok (spl.centers nodes) else
    match nodes with
    | [] => .error .valueError
    | [x] => .ok [x / 2, x / 2]
    | _ => .ok (mids nodes)

/-- numpy broadcasting of two one dimensional arrays. -/
def bcast (a b : List K) : Option (List (K × K)) :=
  if a.length = b.length then some (a.zip b)
  else match a, b with
    | [x], b => some (b.map fun y => (x, y))
    | a, [y] => some (a.map fun x => (x, y))
    | _, _ => none

/-- The check of grid against nodes. `datahandling.py:203-208`. The condition is
`(not all(grid > nodes[:-1])) and all(grid < nodes[1:])`. -/
def checkGrid (grid nodes : List K) : Res Unit :=
  match bcast grid nodes.dropLast, bcast grid nodes.tail with
  | some l, some r =>
    if !(l.all fun p => decide (p.2 < p.1)) && (r.all fun p => decide (p.1 < p.2))
    then .error .valueError else .ok ()
  | _, _ => .error .valueError

/-- `Axis.__init__`. `datahandling.py:117-230`. -/
def mkAxis (spl : Splines K) (a : AxisArgs K) : Res (Axis K) := do
  match a.gridNode with
  | some gn => if monotonicity gn = 0 then throw .valueError
  | none => pure ()
  match a.grid with
  | some g => if monotonicity g = 0 then throw .valueError
  | none => pure ()
  let nodes ← match a.gridNode with
    | some gn => (pure gn : Res (List K))
    | none => match a.grid with
      | some g => nodesOfGrid spl g a.extent
      | none => match a.extent, a.n with
        | some (e0, e1), some n =>
          if n + 1 < 0 then throw .valueError else pure (linspace e0 e1 (n + 1).toNat)
        | _, _ => throw .valueError
  let grid ← match a.grid with
    | none => gridOfNodes spl nodes
    | some g => do
      checkGrid g nodes
      pure g
  let (n0, n1) ← match nodes.head?, nodes.getLast? with
    | some n0, some n1 => (pure (n0, n1) : Res (K × K))
    | _, _ => throw .indexError
  match a.extent with
  | some (e0, e1) => if e0 ≠ n0 ∨ e1 ≠ n1 then throw .valueError
  | none => pure ()
  match a.n with
  | some n => if n ≠ grid.length then throw .valueError
  | none => pure ()
  return ⟨a.name, a.unit, nodes, grid, (n0, n1)⟩

/-- `len(axis)`. -/
def Axis.len (ax : Axis K) : ℕ := ax.grid.length

/-- `isreversed`. `datahandling.py:260-262`. -/
def Axis.isReversed (ax : Axis K) : Bool := decide (ax.extent.2 < ax.extent.1)

/-- `np.isclose(a, b)` with the default tolerances. -/
def isclose (a b : K) : Bool := decide (|a - b| ≤ 1 / 100000000 + 1 / 100000 * |b|)

/-- `helper.islinear`. `helper.py:356-357`. -/
def isLinearList (l : List K) : Bool :=
  match l.head?, l.getLast? with
  | some a, some b => (l.zip (linspace a b l.length)).all fun p => isclose p.1 p.2
  | _, _ => true

/-- `Axis.islinear`. `datahandling.py:250-258`. -/
def Axis.isLinear (ax : Axis K) : Bool :=
  if ax.len < 3 then true else isLinearList ax.gridNode

/-- `Axis.spacing`. `datahandling.py:272-276`. -/
def Axis.spacing (ax : Axis K) : Res K :=
  if !ax.isLinear then .error .typeError else
    match ax.gridNode with
    | a :: b :: _ => .ok |b - a|
    | _ => .error .indexError

/-- `_value_to_index_linear`. `datahandling.py:310-313`. -/
def Axis.valueToIndexLinear (ax : Axis K) (v : K) : K :=
  (v - ax.extent.1) / (ax.extent.2 - ax.extent.1) * ax.len - 1 / 2

/-- `np.all(np.sort(l) == l)`. -/
def isSorted : List K → Bool
  | a :: b :: l => decide (a ≤ b) && isSorted (b :: l)
  | _ => true

/-- `np.searchsorted(l, v, side='left')` for sorted `l`. -/
def searchLeft (l : List K) (v : K) : ℕ := (l.takeWhile fun a => decide (a < v)).length

/-- `np.searchsorted(l, v, side='right')` for sorted `l`. -/
def searchRight (l : List K) (v : K) : ℕ := (l.takeWhile fun a => decide (a ≤ v)).length

/-- The position of a value as used in `_find_nearest_index` (`datahandling.py:320-326`) and
`_extent_to_slice` (`datahandling.py:383-391`). -/
def Axis.search (ax : Axis K) (v : K) : Res ℕ :=
  let sortgrid := if ax.isReversed then ax.grid.reverse else ax.grid
  if !isSorted sortgrid then .error .assertionError
  else if ax.isReversed then .ok (ax.len - searchRight sortgrid v)
  else .ok (searchLeft sortgrid v)

/-- `_find_nearest_index`. `datahandling.py:315-331`. -/
def Axis.findNearestIndex (ax : Axis K) (v : K) : Res ℕ := do
  let idx ← ax.search v
  if 0 < idx then
    if idx = ax.len then return idx - 1
    else match ax.grid[idx - 1]?, ax.grid[idx]? with
      | some a, some b => if |v - a| < |v - b| then return idx - 1 else return idx
      | _, _ => throw .indexError
  else return idx

/-- `_inside_domain`. `datahandling.py:361-366`. -/
def Axis.insideDomain (ax : Axis K) (v : K) : Bool :=
  decide (min ax.extent.1 ax.extent.2 ≤ v ∧ v ≤ max ax.extent.1 ax.extent.2)

/-- An integer slice: start, stop, and whether the step is -1. -/
structure Slice where
  start : Option ℤ
  stop : Option ℤ
  backward : Bool
  deriving DecidableEq

/-- `_extent_to_slice`. `datahandling.py:368-394`. -/
def Axis.extentToSlice (ax : Axis K) (a b : Option K) : Res Slice := do
  let a := a.getD ax.extent.1
  let b := b.getD ax.extent.2
  if !(ax.insideDomain a || ax.insideDomain b) then throw .valueError
  let start ← ax.search a
  let stop ← ax.search b
  return ⟨some start, some stop, decide (b < a) != ax.isReversed⟩

/-- Applying a slice to a list. -/
def Slice.apply {α : Type} (s : Slice) (l : List α) : List α :=
  if s.backward then sliceBwd l s.start s.stop else sliceFwd l s.start s.stop

/-- The slice of the nodes, always with step 1. `datahandling.py:447-451`. -/
def Slice.forNodes (s : Slice) : Slice :=
  { start := match s.start with
      | some 0 => none
      | x => x
    stop := match s.stop with
      | some t => if 0 < t then some (t + (if s.backward then -1 else 1)) else some t
      | none => none
    backward := false }

/-- `Axis.__getitem__` for a slice of integers with step `None`, 1 or -1.
`datahandling.py:435-454`. -/
def Axis.getSlice (spl : Splines K) (ax : Axis K) (s : Slice) : Res (Axis K) :=
  mkAxis spl { name := ax.name, unit := ax.unit, grid := some (s.apply ax.grid),
               gridNode := some (s.forNodes.apply ax.gridNode) }

/-- `Axis.__getitem__` for a slice of floats. `datahandling.py:405-410, 435-454`. -/
def Axis.getRange (spl : Splines K) (ax : Axis K) (a b : Option K) : Res (Axis K) := do
  ax.getSlice spl (← ax.extentToSlice a b)

/-- `reversed`. `datahandling.py:428-433`. -/
def Axis.reversed (spl : Splines K) (ax : Axis K) : Res (Axis K) :=
  mkAxis spl { name := ax.name, unit := ax.unit, grid := some ax.grid.reverse,
               gridNode := some ax.gridNode.reverse }

/-- Every second element, starting with the first: `l[::2]`. -/
def evens {α : Type} : List α → List α
  | [] => []
  | [a] => [a]
  | a :: _ :: l => a :: evens l

/-- `half_resolution`: `grid[:-1:2]`, `grid[1::2]`; arrays of different length are a ValueError
(they always agree). `datahandling.py:352-359`. -/
def Axis.halfResolution (spl : Splines K) (ax : Axis K) : Res (Axis K) :=
  let a := evens ax.grid.dropLast
  let b := evens ax.grid.tail
  mkAxis spl { name := ax.name, unit := ax.unit
               grid := some (List.zipWith (fun x y => 1 / 2 * (x + y)) a b)
               gridNode := some (evens ax.gridNode) }

end Postpic.Axes
