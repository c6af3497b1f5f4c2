import Mathlib.Algebra.Order.Floor.Ring
import Mathlib.Algebra.Module.Defs
import Mathlib.Data.List.Sort
import Verif.Model.Field

/-!
# Shifting grids by linear interpolation, and fields on staggered grids

`Field._shift_grid_by_linear`, `Field.adjust_stagger_to` and `helper.unstagger_fields`.
-/

set_option autoImplicit false

namespace Postpic.Fields

open Postpic Postpic.Axes

section
variable {K : Type} [_root_.Field K] [LinearOrder K] [FloorRing K]
variable {V : Type} [AddCommGroup V] [Module K V]

/-- `mode='nearest'` of `scipy.ndimage` for a dimension with `n` points. -/
def nearest (n : ℕ) (p : K) : K := if p < 0 then 0 else if ((n - 1 : ℕ) : K) < p then ((n - 1 : ℕ) : K) else p

/-- Spline interpolation of order 1 at the position `p`: the weights of the two neighbours. The neighbour
outside of the array (its weight is zero) is replaced by the mirrored one. -/
def linearSample (g : ℕ → V) (n : ℕ) (p : K) : V :=
  let q := nearest n p
  let i := ⌊q⌋.toNat
  let w := q - ⌊q⌋
  (1 - w) • g i + w • g (if i + 1 < n then i + 1 else n - 2)

/-- `scipy.ndimage.shift(a, shift, order=1, mode='nearest')` at one index. (The library sums over all corners
of a cell with products of weights; here the sums are nested.) The list has the length of each dimension
and the shift along it. -/
def shiftAt : List (ℕ × K) → (List ℕ → V) → List ℕ → V
  | [], g, _ => g []
  | _ :: _, g, [] => g []
  | (n, s) :: ds, g, i :: idx => linearSample (fun j => shiftAt ds (fun t => g (j :: t)) idx) n ((i : K) - s)

/-- `scipy.ndimage.shift(a, shift, order=1, mode='nearest')` for floating point data. -/
def ndShift (a : Arr V) (shift : List K) : Res (Arr V) :=
  if a.shape = [] then .error .runtimeError
  else if shift.length ≠ a.shape.length then .error .runtimeError
  else .ok ⟨a.shape, shiftAt (a.shape.zip shift) a.at'⟩

/-- `shift[i] = d` for all items. `datahandling.py:2165-2167`. -/
def setShift : List (ℤ × K) → List K → Res (List K)
  | [], l => .ok l
  | p :: ps, l => do setShift ps (← pySet l p.1 p.2)

/-- The new axes, without names and units. `datahandling.py:2178-2180`. -/
def shiftAxes (spl : Splines K) (old : List (Axis K)) : List (ℤ × K) → List (Axis K) → Res (List (Axis K))
  | [], axes => .ok axes
  | p :: ps, axes => do
    let ax ← pyGet old p.1
    let ax' ← mkAxis spl { gridNode := some (ax.gridNode.map (· + p.2)), grid := some (ax.grid.map (· + p.2)) }
    shiftAxes spl old ps (← pySet axes p.1 ax')

/-- `_shift_grid_by_linear(dx)` for real data. `dx` lists axes and distances, each axis once. (The order of the
axes does not matter.) `datahandling.py:2163-2182`. -/
def Field.shiftLinear (spl : Splines K) (f : Field K V) (dx : List (ℤ × K)) : Res (Field K V) := do
  let shift ← setShift dx (f.axes.map fun _ => 0)
  let spacing ← f.axes.mapM fun ax => ax.spacing
  let shiftPx := List.zipWith (fun s h => s / h) shift spacing
  let matrix ← ndShift f.matrix (shiftPx.map fun s => -s)
  let axes ← shiftAxes spl f.axes dx f.axes
  return { f with matrix := matrix, axes := axes }

/-- `_shift_grid_by_linear(dx)` for complex data: the variable `matrix` does not exist.
`datahandling.py:2163-2174`. -/
def Field.shiftLinearComplex (f : Field K V) (dx : List (ℤ × K)) : Res (Field K V) := do
  let _ ← setShift dx (f.axes.map fun _ => 0)
  let _ ← f.axes.mapM fun ax => ax.spacing
  throw .nameError

/-- `shift_grid_by(dx, interpolation='linear')` for real data. `datahandling.py:2184-2207`. -/
def Field.shiftGridByLinear (spl : Splines K) (f : Field K V) (dx : List (ℤ × K)) : Res (Field K V) :=
  if dx.any fun p => decide (p.1 < 0 ∨ 2 < p.1) then .error .keyError else f.shiftLinear spl dx

/-- `dict(enumerate(dx))`. `datahandling.py:2202-2203`. -/
def enumerate (dx : List K) : List (ℤ × K) := dx.zipIdx.map fun p => ((p.2 : ℤ), p.1)

end

section
variable {K : Type} [_root_.Field K] [LinearOrder K]
variable {V : Type}

/-- `np.median` of a list which is not empty. -/
def npMedian (l : List K) : K :=
  let s := l.insertionSort (· ≤ ·)
  if l.length % 2 = 1 then s.getD (l.length / 2) 0
  else (s.getD (l.length / 2 - 1) 0 + s.getD (l.length / 2) 0) / 2

/-- `[ax.grid[0] for ax in field.axes]`. -/
def Field.origin (f : Field K V) : Res (List K) := f.axes.mapM fun ax => pyGet ax.grid 0

/-- The common origin: the median along each dimension for more than two fields, otherwise that of the first
field. `helper.py:569-576`. -/
def commonOrigin (origins : List (List K)) : List K :=
  match origins with
  | [] => []
  | o :: _ =>
    if 2 < origins.length then (List.range o.length).map fun d => npMedian (origins.map fun l => l.getD d 0)
    else o

/-- One field in the loop. `shift` is `shift_grid_by` with the chosen method (for real fields followed by
`.real`). `helper.py:578-593`. -/
def unstaggerOne (shift : Field K V → List K → Res (Field K V)) (origin spacing : List K) (f : Field K V) :
    Res (Field K V) := do
  let fo ← f.origin
  if (origin.zip fo).all fun p => isclose p.1 p.2 then return f
  let dx := List.zipWith (· - ·) origin fo
  if (dx.zip spacing).any fun p => decide (2 < |p.1 / p.2|) then throw .valueError
  shift f dx

/-- `unstagger_fields(*fields, method=..., origin=...)`. (A given origin has one number per dimension.)
`helper.py:546-593`. -/
def unstaggerFields (shift : Field K V → List K → Res (Field K V)) (fields : List (Field K V))
    (origin : Option (List K)) : Res (List (Field K V)) :=
  match fields with
  | [] => .error .indexError
  | f :: _ => do
    if !fields.all fun g => g.shape = f.shape then throw .valueError
    if !fields.all fun g => g.axes.all fun ax => ax.isLinear then throw .valueError
    let spacing ← f.axes.mapM fun ax => ax.spacing
    let spacings ← fields.mapM fun g => g.axes.mapM fun ax => ax.spacing
    if !spacings.all fun s => (spacing.zip s).all fun p => isclose p.1 p.2 then throw .valueError
    let origins ← fields.mapM fun g => g.origin
    fields.mapM (unstaggerOne shift (origin.getD (commonOrigin origins)) spacing)

/-- `adjust_stagger_to(other)`. `datahandling.py:2209-2211`. -/
def Field.adjustStaggerTo (shift : Field K V → List K → Res (Field K V)) (f other : Field K V) :
    Res (Field K V) := do
  let origin ← other.origin
  let l ← unstaggerFields shift [f] (some origin)
  pyGet l 0

end

end Postpic.Fields
