import Mathlib.Analysis.SpecialFunctions.Trigonometric.Arctan
import Mathlib.LinearAlgebra.Matrix.Determinant.Basic
import Verif.Py.Err

/-!
# Coordinate transformations

Polar coordinates and Jacobians (`postpic/helper.py:184-206, 326-355`). The numbers are real
numbers: there is no rounding and a single zero.
-/

set_option autoImplicit false

namespace Postpic.Polar

open Postpic

noncomputable section

/-- `np.arctan2(y, x)` for finite arguments, by the cases of the C standard (F.10.1.4); arguments with
negative zeros are not modelled. -/
def arctan2 (y x : ℝ) : ℝ :=
  if 0 < x then Real.arctan (y / x)
  else if x < 0 then
    if 0 ≤ y then Real.arctan (y / x) + Real.pi else Real.arctan (y / x) - Real.pi
  else if 0 < y then Real.pi / 2
  else if y < 0 then -(Real.pi / 2)
  else 0

/-- `polar2linear`. `helper.py:184-187`. -/
def polar2linear (theta r : ℝ) : ℝ × ℝ :=
  let x := r * Real.cos theta
  let y := r * Real.sin theta
  (x, y)

/-- `polar2linear_jac`. `helper.py:190-195`. -/
def polar2linearJac (theta r : ℝ) : List (List ℝ) :=
  let xTheta := -r * Real.sin theta
  let xR := Real.cos theta
  let yTheta := r * Real.cos theta
  let yR := Real.sin theta
  [[xTheta, xR], [yTheta, yR]]

/-- `polar2linear_jacdet`. `helper.py:198-199`. -/
def polar2linearJacdet (_theta r : ℝ) : ℝ := r

/-- `linear2polar`. `helper.py:202-205`. -/
def linear2polar (x y : ℝ) : ℝ × ℝ :=
  let r := Real.sqrt (x ^ 2 + y ^ 2)
  let theta := arctan2 y x
  (theta, r)

/-- The square matrix given by its rows, if they have the right length. -/
def squareMatrix (rows : List (List ℝ)) : Res (Matrix (Fin rows.length) (Fin rows.length) ℝ) :=
  if rows.all (fun row => row.length == rows.length) then
    .ok (Matrix.of fun i j => (rows.getD i []).getD j 0)
  else .error .valueError

/-- What a Jacobian function returns: the bare derivative(s) for a function of a single coordinate,
rows otherwise. -/
inductive Jac where
  | scalar (d : List ℝ)
  | rows (rows : List (List ℝ))

/-- `jac_det(jacobian_func)` at one point; `numpy.linalg.det` is the determinant, which raises
`LinAlgError` (a `ValueError`) for a matrix which is not square. A row matrix with a single row gives
the absolute values of this row, an array. `helper.py:326-355`. -/
def jacDet : Jac → Res (List ℝ)
  | .scalar [d] => .ok [|d|]
  | .scalar _ => .error .typeError
  | .rows [row] => .ok (row.map fun a => |a|)
  | .rows rows => do
    let m ← squareMatrix rows
    return [|m.det|]

end

end Postpic.Polar
