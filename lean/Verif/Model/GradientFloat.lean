import Verif.Model.Calculus
import Verif.Model.CalculusFloat

/-!
# Model of derivatives with rounding

`postpic/datahandling.py:1819-1868` and `np.gradient` once more, every operation followed by the rounding `rnd` (a parameter). The values
of a field are doubles, its coordinates are finite. The test whether an axis is evenly spaced and the new axis of the staggered derivative
are those of the exact model.
-/

set_option autoImplicit false

namespace Postpic.Fields

open Postpic Postpic.Axes Postpic.Histogram

variable {K : Type} [_root_.Field K] [LinearOrder K] [FloorRing K]

/-- `a / b` of numpy; a division by 0 gives a warning only. The sign of zero is not modelled. -/
def quotF (rnd : K → Dbl K) : Dbl K → Dbl K → Dbl K
  | .fin x, .fin y => if y = 0 then (if x = 0 then .nan else .inf (decide (x < 0))) else rnd (x / y)
  | .inf s, .fin y => .inf (s != decide (y < 0))
  | .fin _, .inf _ => .fin 0
  | _, _ => .nan

/-- `np.diff(x)`. -/
def diffsF (rnd : K → Dbl K) (x : List K) : List (Dbl K) := List.zipWith (fun b a => Dbl.sub rnd (.fin b) (.fin a)) x.tail x

/-- `np.gradient(y, h)` with the same distance between all `n` points, at point `i`: `(f[2:] - f[:-2]) / (2. * h)` and
`(f[1] - f[0]) / h` at the border. -/
def gradientEvenF (rnd : K → Dbl K) (h : Dbl K) (y : ℕ → Dbl K) (n i : ℕ) : Dbl K :=
  if i = 0 then quotF rnd (Dbl.sub rnd (y 1) (y 0)) h
  else if i = n - 1 then quotF rnd (Dbl.sub rnd (y (n - 1)) (y (n - 2))) h
  else quotF rnd (Dbl.sub rnd (y (i + 1)) (y (i - 1))) (Dbl.mul rnd (.fin 2) h)

/-- `np.gradient(y, x)` for a list of distances `d`, at point `i`: `a * f[:-2] + b * f[1:-1] + c * f[2:]` with
`a = -(d2)/(d1 * (d1 + d2))`, `b = (d2 - d1) / (d1 * d2)`, `c = d1 / (d2 * (d1 + d2))`. -/
def gradientUnevenF (rnd : K → Dbl K) (d : List (Dbl K)) (y : ℕ → Dbl K) (n i : ℕ) : Dbl K :=
  if i = 0 then quotF rnd (Dbl.sub rnd (y 1) (y 0)) (d.getD 0 .nan)
  else if i = n - 1 then quotF rnd (Dbl.sub rnd (y (n - 1)) (y (n - 2))) (d.getD (n - 2) .nan)
  else
    let d1 := d.getD (i - 1) .nan
    let d2 := d.getD i .nan
    let a := quotF rnd d2.neg (Dbl.mul rnd d1 (Dbl.add rnd d1 d2))
    let b := quotF rnd (Dbl.sub rnd d2 d1) (Dbl.mul rnd d1 d2)
    let c := quotF rnd d1 (Dbl.mul rnd d2 (Dbl.add rnd d1 d2))
    Dbl.add rnd (Dbl.add rnd (Dbl.mul rnd a (y (i - 1))) (Dbl.mul rnd b (y i))) (Dbl.mul rnd c (y (i + 1)))

/-- `np.gradient(y, x)`: equal distances (`(diffx == diffx[0]).all()`) are treated separately. -/
def gradientAtF (rnd : K → Dbl K) (x : List K) (y : ℕ → Dbl K) (n i : ℕ) : Dbl K :=
  if (diffsF rnd x).all fun d => decide (d = (diffsF rnd x).headD .nan) then gradientEvenF rnd ((diffsF rnd x).headD .nan) y n i
  else gradientUnevenF rnd (diffsF rnd x) y n i

/-- `np.gradient(a, x, axis=axis)`. -/
def Arr.gradientF (rnd : K → Dbl K) (a : Arr (Dbl K)) (x : List K) (axis : ℤ) : Res (Arr (Dbl K)) := do
  let k ← axisIdx a.shape.length axis
  if a.shape[k]? ≠ some x.length then throw .valueError
  if x.length < 2 then throw .valueError
  return ⟨a.shape, fun idx => gradientAtF rnd x (fun j => a.at' (idx.set k j)) x.length (idx.getD k 0)⟩

/-- `derivative(axis)` with numpy 1.13 or later. `datahandling.py:1831-1836, 1855-1868`. -/
def Field.derivativeF (rnd : K → Dbl K) (f : Field K (Dbl K)) (axis : ℤ) : Res (Field K (Dbl K)) := do
  let ax ← pyGet f.axes axis
  let g ← Arr.gradientF rnd f.matrix ax.grid axis
  let r ← f.replaceData g
  return { r with name := f.name ++ "'" }

/-- `spacing`: `np.abs(self._grid_node[1] - self._grid_node[0])`. `datahandling.py:272-276`. -/
def spacingF [IsStrictOrderedRing K] (rnd : K → Dbl K) (ax : Axis K) : Res (Dbl K) :=
  if !ax.isLinear then .error .typeError else
    match ax.gridNode with
    | a :: b :: _ => .ok (Dbl.sub rnd (.fin b) (.fin a)).abs
    | _ => .error .indexError

/-- `_derivative_stagger(axis)`. `datahandling.py:1838-1853`. -/
def Field.derivativeStaggerF [IsStrictOrderedRing K] (rnd : K → Dbl K) (spl : Splines K) (f : Field K (Dbl K)) (axis : ℤ) :
    Res (Field K (Dbl K)) := do
  let ax ← pyGet f.axes axis
  if !ax.isLinear then throw .valueError
  let ax' ← mkAxis spl { name := ax.name, unit := ax.unit, grid := some ax.gridNode.tail.dropLast }
  let axes ← pySet f.axes axis ax'
  match pyIdx f.dims.toNat axis with
  | none => throw .indexError
  | some k =>
    let dx ← spacingF rnd ax
    let m : Arr (Dbl K) := ⟨f.shape.modify k (· - 1), fun idx =>
      quotF rnd (Dbl.sub rnd (f.matrix.at' (idx.modify k (· + 1))) (f.matrix.at' idx)) dx⟩
    mkField m (f.name ++ "'") f.unit axes (m.shape.map fun _ => some false) (m.shape.map fun _ => none)

end Postpic.Fields
