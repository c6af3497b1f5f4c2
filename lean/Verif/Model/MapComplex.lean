import Mathlib.LinearAlgebra.Matrix.Determinant.Basic
import Verif.Model.Calculus
import Verif.Model.FieldProps
import Verif.Model.MapGrid

/-!
# Complex fields in other coordinates

`Field.map_coordinates` for complex data with its modes, and the Jacobian determinant it uses, with the numerical approximation.
-/

set_option autoImplicit false

namespace Postpic.Fields

open Postpic Postpic.Axes

noncomputable section

/-- The determinant of `jac_det`; `jac i j` is the derivative of the old coordinate `i` by the new coordinate `j`. (In one
dimension the determinant is the derivative itself.) `helper.py:344-351`. -/
def jacDet (n : ℕ) (jac : ℕ → ℕ → ℝ) : ℝ := |(Matrix.of fun i j : Fin n => jac i j).det|

/-- `approx_jacobian(transform)` at the point `idx` of the new grid, with numpy 1.13 or later: `np.gradient` of the old
coordinate `i` along the new axis `j`. `helper.py:390-409`. -/
def approxJacobian (newaxes : List (Axis ℝ)) (transform : List ℝ → List ℝ) (idx : List ℕ) (i j : ℕ) : ℝ :=
  let x := (newaxes.map (·.grid)).getD j []
  gradientAt x (fun k => (transform (gridPoint newaxes (idx.set j k))).getD i 0) x.length (idx.getD j 0)

/-- The determinant with which the data are multiplied, at the points of the new grid: 1 if there is no transform, otherwise the
given function, or the determinant of the given matrix, or the numerical approximation, for which `np.gradient` needs two
points on each axis. `datahandling.py:1310-1331, 1391-1393`. -/
def determinant (newaxes : List (Axis ℝ)) (transform : Option (List ℝ → List ℝ)) (detFunc : Option (List ℝ → ℝ))
    (jacFunc : Option (List ℝ → ℕ → ℕ → ℝ)) : Res (List ℕ → ℝ) :=
  match transform, detFunc, jacFunc with
  | none, _, _ => .ok fun _ => 1
  | some _, some det, _ => .ok fun idx => det (gridPoint newaxes idx)
  | some _, none, some jac => .ok fun idx => jacDet newaxes.length (jac (gridPoint newaxes idx))
  | some t, none, none =>
    if newaxes.any fun ax => decide (ax.grid.length < 2) then .error .valueError
    else .ok fun idx => jacDet newaxes.length (approxJacobian newaxes t idx)

/-- One real array sampled at the new points. `datahandling.py:1342-1357`. -/
def Field.mapPart (sample : Arr ℝ → List ℝ → Res ℝ) (f : Field ℝ ℂ) (newaxes : List (Axis ℝ))
    (transform : List ℝ → List ℝ) (part : Arr ℝ) : Res (Arr ℝ) := do
  let g : Field ℝ ℝ := ⟨f.name, f.unit, part, f.axes, f.ats, f.tao⟩
  return (← g.mapCoordinates sample newaxes (some (transform, fun _ => 1)) false).matrix

/-- `map_coordinates` for complex data. `unwrap` is the function of skimage, `none` if it could not be imported (then there is
only a warning). The mode is looked at after the coordinates have been computed. `datahandling.py:1310-1404`. -/
def Field.mapComplex (sample : Arr ℝ → List ℝ → Res ℝ) (unwrap : Option (Arr ℝ → Arr ℝ)) (f : Field ℝ ℂ)
    (newaxes : List (Axis ℝ)) (transform : Option (List ℝ → List ℝ)) (detFunc : Option (List ℝ → ℝ))
    (jacFunc : Option (List ℝ → ℕ → ℕ → ℝ)) (mode : String) (preserveIntegral : Bool) : Res (Field ℝ ℂ) := do
  let t := transform.getD id
  if preserveIntegral ∧ (newaxes.length : ℤ) ≠ f.dims then throw .valueError
  let data ←
    if mode = "cartesian" then do
      let re ← f.mapPart sample newaxes t (Arr.each Complex.re f.matrix)
      let im ← f.mapPart sample newaxes t (Arr.each Complex.im f.matrix)
      (pure fun idx => (⟨re.at' idx, im.at' idx⟩ : ℂ) : Res (List ℕ → ℂ))
    else if mode = "polar" ∨ mode = "polar-no-unwrap" then do
      let angle := Arr.each Complex.arg f.matrix
      let angle := if mode = "polar" then (match unwrap with
        | some u => u angle
        | none => angle) else angle
      let absval ← f.mapPart sample newaxes t (Arr.each (fun z => ‖z‖) f.matrix)
      let angle ← f.mapPart sample newaxes t angle
      pure fun idx => (absval.at' idx : ℂ) * Complex.exp (Complex.I * angle.at' idx)
    else throw .valueError
  let data ← if preserveIntegral then do
      let det ← determinant newaxes transform detFunc jacFunc
      (pure fun idx => det idx * data idx : Res (List ℕ → ℂ))
    else pure data
  let shape := newaxes.map Axis.len
  let state := f.transformState.getD false
  let dims := (if 0 ∈ shape then 0 else shape.length)
  return { f with matrix := ⟨shape, data⟩, axes := newaxes, tao := List.replicate dims none,
                  ats := List.replicate dims (some state) }

end

end Postpic.Fields
