import Verif.Model.AxisFloat

/-!
# Model of the test for even axes with floating point numbers

`helper.islinear` and `Axis.islinear`, each operation followed by a rounding (parameter).
-/

set_option autoImplicit false

namespace Postpic.Axes

open Postpic Postpic.Histogram

variable {K : Type} [Field K] [LinearOrder K] [IsStrictOrderedRing K] [FloorRing K]

/-- `np.isclose(a, b)`: `abs(a - b) <= atol + rtol * abs(b)` with `rtol=1e-5` and `atol=1e-8` for finite numbers; infinite ones are equal or not. -/
def iscloseF (rnd : K → Dbl K) : Dbl K → Dbl K → Bool
  | .fin a, .fin b =>
    Dbl.le (Dbl.abs (Dbl.sub rnd (.fin a) (.fin b)))
      (Dbl.add rnd (rnd (1 / 100000000)) (Dbl.mul rnd (rnd (1 / 100000)) (Dbl.abs (.fin b))))
  | .inf s, .inf t => s == t
  | _, _ => false

/-- `helper.islinear`: comparison with `np.linspace(grid[0], grid[-1], len(grid))`. If an end is infinite or NaN, so is the difference of the ends, and the
first number of `linspace` is NaN: not even. (An empty list raises IndexError; it is not passed to this function.) `helper.py:356-357`. -/
def isLinearListF (rnd : K → Dbl K) (l : List (Dbl K)) : Bool :=
  match l.head?, l.getLast? with
  | some (.fin a), some (.fin b) => (l.zip (linspaceF rnd a b l.length)).all fun p => iscloseF rnd p.1 p.2
  | some _, some _ => false
  | _, _ => true

/-- `Axis.islinear` of an axis with these nodes; an axis has one point less than nodes. `datahandling.py:250-258`. -/
def axisIsLinearF (rnd : K → Dbl K) (nodes : List (Dbl K)) : Bool :=
  if nodes.length - 1 < 3 then true else isLinearListF rnd nodes

/-- `Axis.spacing` of an axis with these nodes: the distance of the first two nodes, if the axis counts as even. An axis has at least one point and so two
nodes. `datahandling.py:272-276`. -/
def axisSpacingF (rnd : K → Dbl K) (nodes : List (Dbl K)) : Res (Dbl K) :=
  if axisIsLinearF rnd nodes then
    match nodes with
    | n0 :: n1 :: _ => .ok (Dbl.abs (Dbl.sub rnd n1 n0))
    | _ => .error .indexError
  else .error .typeError

end Postpic.Axes
