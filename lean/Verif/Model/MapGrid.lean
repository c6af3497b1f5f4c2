import Mathlib.Data.Real.Sqrt
import Verif.Model.Field
import Verif.Model.Interp
import Verif.Model.Polar

/-!
# Fields in other coordinates

`Field.map_axis_grid`, `Field.map_coordinates` and `Field.topolar` for real data. A transformation is
applied to each coordinate (or each tuple of coordinates) separately.
-/

set_option autoImplicit false

namespace Postpic.Fields

open Postpic Postpic.Axes

section
variable {K : Type} [_root_.Field K] [LinearOrder K]

/-- `approx_1d_jacobian_det(transform)` at one coordinate; `eps` is the square root of the machine
precision. `none` is `nan`: a vanishing step gives `0/0`. `helper.py:411-420`. -/
def approx1dJacobianDet (eps : K) (transform : K → K) (x : K) : Option K :=
  let dx := eps + eps * x
  if dx = 0 then none
  else some |(transform (x + dx) - transform (x - dx)) / (2 * dx)|

section
variable {V : Type} [SMul K V]

/-- A number which can be divided by; `none` is `nan`. -/
def divisor : Option K → Res K
  | none => .error .undefinedBehaviour
  | some j => if j = 0 then .error .undefinedBehaviour else .ok j

/-- `map_axis_grid(axis, transform, preserve_integral, jacobian_func)`; `axis` is the number found in
`helper.axesidentify`. Data which are not finite numbers (division by zero or `nan`) are reported as
`undefinedBehaviour`; numpy stores `inf` or `nan`. The division of two integers is not modelled.
`datahandling.py:1204-1257`. -/
def Field.mapAxisGrid (spl : Splines K) (eps : K) (f : Field K V) (axis : ℕ) (transform : K → K)
    (preserveIntegral : Bool) (jacobianFunc : Option (K → Option K)) : Res (Field K V) := do
  let matrix ←
    if preserveIntegral then do
      let jacobianFunc := jacobianFunc.getD (approx1dJacobianDet eps transform)
      if f.dims ≤ axis then throw .indexError
      let ax ← pyGet f.axes axis
      if f.shape[axis]? ≠ some ax.len then throw .valueError
      let jac ← ax.grid.mapM fun x => divisor (jacobianFunc x)
      pure ⟨f.shape, fun idx => (jac.getD (idx.getD axis 0) 0)⁻¹ • f.matrix.at' idx⟩
    else (pure f.matrix : Res (Arr V))
  let ax ← pyGet f.axes axis
  let ax' ← mkAxis spl { name := ax.name, unit := ax.unit, grid := some (ax.grid.map transform),
                         gridNode := some (ax.gridNode.map transform) }
  let axes ← pySet f.axes axis ax'
  return { f with matrix := matrix, axes := axes }

end

/-! ### Positions between the points of the grid -/

/-- The nodes and the grid points, with the fractional indices `-1/2, 0, 1/2, 1, ...`.
`datahandling.py:296-301`. -/
def _root_.Postpic.Axes.Axis.gridAndNodes (ax : Axis K) : Res (List (K × K)) :=
  if ax.gridNode.length ≠ ax.grid.length + 1 then .error .valueError
  else
    let xs := (List.zipWith (fun a b => [a, b]) ax.gridNode ax.grid).flatten ++
      ax.gridNode.getLast?.toList
    .ok (xs.zip (linspace (-1 / 2) ((ax.len : K) - 1 / 2) xs.length))

/-- `scipy.interpolate.interp1d(x, y)(v)` for sorted points. The segment is found with `searchsorted`;
values outside of the range are refused. -/
def interp1d (pts : List (K × K)) (v : K) : Res K :=
  match pts.head?, pts.getLast? with
  | some p, some q =>
    if v < p.1 ∨ q.1 < v then .error .valueError
    else
      let k := min (max (searchLeft (pts.map (·.1)) v) 1) (pts.length - 1)
      match pts[k - 1]?, pts[k]? with
      | some lo, some hi => .ok ((hi.2 - lo.2) / (hi.1 - lo.1) * (v - lo.1) + lo.2)
      | _, _ => .error .indexError
  | _, _ => .error .valueError

/-- `_value_to_index_nonlinear`; `interp1d` sorts its points, that is, it reverses those of an axis
running backwards. `datahandling.py:294-308`. -/
def _root_.Postpic.Axes.Axis.valueToIndexNonlinear (ax : Axis K) (v : K) : Res K := do
  let pts ← ax.gridAndNodes
  let pts := if ax.isReversed then pts.reverse else pts
  let lo := min ax.extent.1 ax.extent.2
  let hi := max ax.extent.1 ax.extent.2
  interp1d pts (min (max v lo) hi)

/-- `value_to_index`. `datahandling.py:333-350`. -/
def _root_.Postpic.Axes.Axis.valueToIndex (ax : Axis K) (v : K) : Res K :=
  if ax.isLinear then .ok (ax.valueToIndexLinear v) else ax.valueToIndexNonlinear v

/-! ### Resampling -/

section
variable {V : Type} [Zero V] [SMul K V]

/-- The coordinates of a point of the new grid. -/
def gridPoint (axes : List (Axis K)) (idx : List ℕ) : List K :=
  List.zipWith (fun (ax : Axis K) i => ax.grid.getD i 0) axes idx

/-- The value found for a point of the new grid: the transformed coordinates are converted to
positions in the array, where the array is sampled. `datahandling.py:1343-1353`. -/
def Field.sampleAt (sample : Arr V → List K → Res V) (f : Field K V) (newaxes : List (Axis K))
    (transform : List K → List K) (idx : List ℕ) : Res V := do
  let coordinates := transform (gridPoint newaxes idx)
  let px ← (f.axes.zip coordinates).mapM fun p => p.1.valueToIndex p.2
  if px.length ≠ f.shape.length then throw .runtimeError
  sample f.matrix px

/-- `map_coordinates(newaxes, transform, preserve_integral, jacobian_determinant_func)` for real data.
`sample` is the interpolation at one position, see `Interp.interp` for
`helper.map_coordinates_parallel`. Without a transform the coordinates are unchanged and the
determinant is 1. The numerical approximation of the determinant (`approx_jacobian`) is not modelled:
`jacdet` is the function used. `datahandling.py:1310-1404`. -/
def Field.mapCoordinates (sample : Arr V → List K → Res V) (f : Field K V) (newaxes : List (Axis K))
    (transform : Option ((List K → List K) × (List K → K))) (preserveIntegral : Bool) :
    Res (Field K V) := do
  let (transform, jacdet) := transform.getD (id, fun _ => 1)
  if preserveIntegral ∧ (newaxes.length : ℤ) ≠ f.dims then throw .valueError
  let shape := newaxes.map Axis.len
  let _ ← (Interp.indices shape).mapM (f.sampleAt sample newaxes transform)
  let data := fun idx => match f.sampleAt sample newaxes transform idx with
    | .ok v => v
    | .error _ => 0
  let matrix : Arr V := ⟨shape, if preserveIntegral then
    fun idx => jacdet (gridPoint newaxes idx) • data idx else data⟩
  let state := f.transformState.getD false
  let dims := (if 0 ∈ shape then 0 else shape.length)
  return { f with matrix := matrix, axes := newaxes, tao := List.replicate dims none,
                  ats := List.replicate dims (some state) }

end

end

/-! ### Polar coordinates -/

noncomputable section

/-- `int(x)` of a real number. -/
def truncInt (x : ℝ) : ℤ := if 0 ≤ x then ⌊x⌋ else ⌈x⌉

/-- The smallest and largest absolute value of a grid. -/
def absRange (grid : List ℝ) : Res (ℝ × ℝ) :=
  match (grid.map fun x => |x|).min?, (grid.map fun x => |x|).max? with
  | some lo, some hi => .ok (lo, hi)
  | _, _ => .error .valueError

/-- The extent used by `topolar`: four given numbers, or two given angles, or nothing. Other numbers of
entries are not modelled. `datahandling.py:2232-2241`. -/
def Field.polarExtent (f : Field ℝ ℝ) (extent : Option ((ℝ × ℝ) × Option (ℝ × ℝ))) :
    Res ((ℝ × ℝ) × (ℝ × ℝ)) :=
  match extent with
  | some (angles, some radii) => .ok (angles, radii)
  | _ => do
    let a0 ← pyGet f.axes 0
    let a1 ← pyGet f.axes 1
    let (lo0, hi0) ← absRange a0.grid
    let (lo1, hi1) ← absRange a1.grid
    let rMin := Real.sqrt (lo0 ^ 2 + lo1 ^ 2)
    let rMax := Real.sqrt (hi0 ^ 2 + hi1 ^ 2)
    match extent with
    | none => return ((-Real.pi, Real.pi), (rMin, rMax))
    | some (angles, _) => return (angles, (rMin, rMax))

/-- The numbers of points used by `topolar`. `datahandling.py:2243-2248`. -/
def Field.polarShape (f : Field ℝ ℝ) (e : (ℝ × ℝ) × (ℝ × ℝ)) : Option (ℤ × ℤ) → Res (ℤ × ℤ)
  | some s => .ok s
  | none => do
    let sp ← f.axes.mapM Axis.spacing
    match sp.min? with
    | none => throw .valueError
    | some d =>
      if d = 0 then throw .undefinedBehaviour
      let ptrR := min 1000 (truncInt ((e.2.2 - e.2.1) / d))
      let ptrT := min 1000 (truncInt ((e.1.2 - e.1.1) * (e.2.1 + e.2.2) / 2 / d))
      return (ptrT, ptrR)

/-- `np.linspace(a, b, m)` with a number which can be negative. -/
def linspaceInt (a b : ℝ) (m : ℤ) : Res (List ℝ) :=
  if m < 0 then .error .valueError else .ok (linspace a b m.toNat)

/-- `helper.polar2linear` for a list of coordinates. -/
def polarTransform : List ℝ → List ℝ
  | [theta, r] => let p := Polar.polar2linear theta r; [p.1, p.2]
  | l => l

/-- `helper.polar2linear_jacdet` for a list of coordinates. -/
def polarJacdet : List ℝ → ℝ
  | [theta, r] => Polar.polar2linearJacdet theta r
  | _ => 1

/-- `setaxisobj(0, axisobj)`. `datahandling.py:914-926`. -/
def Field.setFirstAxis (f : Field ℝ ℝ) (ax : Axis ℝ) : Res (Field ℝ ℝ) := do
  let n ← pyGet f.shape 0
  if n ≠ ax.len then throw .valueError
  let axes ← pySet f.axes 0 ax
  return { f with axes := axes }

/-- `topolar(extent, shape, angleoffset, preserve_integral)` for real data.
`datahandling.py:2213-2275`. -/
def Field.topolar (spl : Splines ℝ) (sample : Arr ℝ → List ℝ → Res ℝ) (f : Field ℝ ℝ)
    (extent : Option ((ℝ × ℝ) × Option (ℝ × ℝ))) (shape : Option (ℤ × ℤ)) (angleoffset : ℝ)
    (preserveIntegral : Bool) : Res (Field ℝ ℝ) := do
  let e ← f.polarExtent extent
  let s ← f.polarShape e shape
  let thetaGrid ← linspaceInt e.1.1 e.1.2 s.1
  let theta ← mkAxis spl { name := "theta", unit := "rad", grid := some thetaGrid }
  let thetaOffset ← mkAxis spl { name := "theta", unit := "rad",
                                 grid := some (thetaGrid.map (· - angleoffset)) }
  let a0 ← pyGet f.axes 0
  let rname := if a0.name.startsWith "k" then "k" else "r"
  let rGrid ← linspaceInt e.2.1 e.2.2 s.2
  let r ← mkAxis spl { name := rname, unit := a0.unit, grid := some rGrid }
  let ret ← f.mapCoordinates sample [thetaOffset, r] (some (polarTransform, polarJacdet))
    preserveIntegral
  ret.setFirstAxis theta

end

end Postpic.Fields
