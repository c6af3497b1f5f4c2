import Verif.Model.Field

/-!
# Model of integration by quadrature rules and of derivatives

`Field.integrate` with a callable (the default is `scipy.integrate.simpson`) and `Field.derivative`
with `np.gradient`.
-/

set_option autoImplicit false
set_option linter.unusedSectionVars false

namespace Postpic.Fields

open Postpic Postpic.Axes

variable {K V : Type} [_root_.Field K] [LinearOrder K] [IsStrictOrderedRing K]
  [AddCommGroup V] [Module K V]

/-! ### `scipy.integrate.simpson` -/

/-- `_basic_simpson(y, 0, len(y) - 2, x, ...)` of scipy: Simpson's rule on the pairs of intervals. -/
def basicSimpson : List K → List V → V
  | x0 :: x1 :: x2 :: xs, y0 :: y1 :: y2 :: ys =>
    let h0 := x1 - x0
    let h1 := x2 - x1
    ((h0 + h1) / 6) • ((2 - h1 / h0) • y0 + ((h0 + h1) * (h0 + h1) / (h0 * h1)) • y1 + (2 - h0 / h1) • y2)
      + basicSimpson (x2 :: xs) (y2 :: ys)
  | _, _ => 0

/-- Cartwright's correction for the last interval; `h0` and `h1` are the last two spacings. -/
def cartwright (h0 h1 : K) (y1 y2 y3 : V) : V :=
  ((2 * h1 ^ 2 + 3 * h0 * h1) / (6 * (h1 + h0))) • y1 + ((h1 ^ 2 + 3 * h0 * h1) / (6 * h0)) • y2
    - (h1 ^ 3 / (6 * h0 * (h0 + h1))) • y3

/-- `scipy.integrate.simpson(y, x=x)` for one line of data (scipy 1.11 and later). -/
def simpson (x : List K) (y : List V) : V :=
  let n := y.length
  if n % 2 = 1 then basicSimpson x y
  else if n = 2 then ((x.getD 1 0 - x.getD 0 0) / 2) • (y.getD 1 0 + y.getD 0 0)
  else basicSimpson x.dropLast y.dropLast +
    cartwright (x.getD (n - 2) 0 - x.getD (n - 3) 0) (x.getD (n - 1) 0 - x.getD (n - 2) 0)
      (y.getD (n - 1) 0) (y.getD (n - 2) 0) (y.getD (n - 3) 0)

/-- `scipy.integrate.trapezoid(y, x=x)` for one line of data. -/
def trapezoid : List K → List V → V
  | x0 :: x1 :: xs, y0 :: y1 :: ys => ((x1 - x0) / 2) • (y0 + y1) + trapezoid (x1 :: xs) (y1 :: ys)
  | _, _ => 0

/-! ### `integrate` -/

/-- The data along dimension `k`; `idx` is the position in the other dimensions. -/
def line (a : Arr V) (k : ℕ) (idx : List ℕ) : List V :=
  (List.range (a.shape.getD k 0)).map fun j => a.at' (idx.insertIdx k j)

/-- One round of `_integrate_scipy`. The method fails with a ValueError if the number of points
does not fit. `datahandling.py:1745-1749`. -/
def Field.methodStep (method : List K → List V → V) (f : Field K V) (axis : ℤ) : Res (Field K V) := do
  let ax ← pyGet f.axes axis
  let k ← axisIdx f.shape.length axis
  if f.shape[k]? ≠ some ax.grid.length then throw .valueError
  let axes ← pyDel f.axes axis
  let ats ← pyDel f.ats axis
  let tao ← pyDel f.tao axis
  return { f with matrix := ⟨f.shape.eraseIdx k, fun idx => method ax.grid (line f.matrix k idx)⟩
                  axes := axes, ats := ats, tao := tao }

/-- The loop of `_integrate_scipy`. -/
def methodLoop (method : List K → List V → V) (f : Field K V) : List ℤ → Res (Field K V)
  | [] => .ok f
  | a :: as => do methodLoop method (← f.methodStep method a) as

/-- `integrate(axes, method)` with a callable; `none` stands for `axes=None`.
`datahandling.py:1743-1751, 1791-1817`. -/
def Field.integrateMethod (method : List K → List V → V) (f : Field K V) (axes : Option (List ℤ)) :
    Res (Field K V) :=
  methodLoop method f (sortDesc (axes.getD f.rangeDims))

/-- `integrate(axes)`. -/
def Field.integrateDefault (f : Field K V) (axes : Option (List ℤ)) : Res (Field K V) :=
  f.integrateMethod simpson axes

/-! ### `np.gradient` -/

/-- The differences of neighbouring coordinates. -/
def diffs (x : List K) : List K := List.zipWith (fun b a => b - a) x.tail x

/-- `np.gradient(y, h)` with the same distance between all `n` points, at point `i`. -/
def gradientEven (h : K) (y : ℕ → V) (n i : ℕ) : V :=
  if i = 0 then h⁻¹ • (y 1 - y 0)
  else if i = n - 1 then h⁻¹ • (y (n - 1) - y (n - 2))
  else (2 * h)⁻¹ • (y (i + 1) - y (i - 1))

/-- `np.gradient(y, x)` for a list of different distances `d`, at point `i`. -/
def gradientUneven (d : List K) (y : ℕ → V) (n i : ℕ) : V :=
  if i = 0 then (d.getD 0 0)⁻¹ • (y 1 - y 0)
  else if i = n - 1 then (d.getD (n - 2) 0)⁻¹ • (y (n - 1) - y (n - 2))
  else
    let d1 := d.getD (i - 1) 0
    let d2 := d.getD i 0
    (-d2 / (d1 * (d1 + d2))) • y (i - 1) + ((d2 - d1) / (d1 * d2)) • y i
      + (d1 / (d2 * (d1 + d2))) • y (i + 1)

/-- `np.gradient(y, x)`: equal distances are treated separately. -/
def gradientAt (x : List K) (y : ℕ → V) (n i : ℕ) : V :=
  if (diffs x).all fun d => decide (d = (diffs x).headD 0) then gradientEven ((diffs x).headD 0) y n i
  else gradientUneven (diffs x) y n i

/-- `np.gradient(a, x, axis=axis)`; at least two points are needed. -/
def Arr.gradient (a : Arr V) (x : List K) (axis : ℤ) : Res (Arr V) := do
  let k ← axisIdx a.shape.length axis
  if a.shape[k]? ≠ some x.length then throw .valueError
  if x.length < 2 then throw .valueError
  return ⟨a.shape, fun idx =>
    gradientAt x (fun j => a.at' (idx.set k j)) x.length (idx.getD k 0)⟩

/-- `np.gradient(a, axis=k)` with distance one. -/
def Arr.gradientUnit (K : Type) [_root_.Field K] {V : Type} [AddCommGroup V] [Module K V] (a : Arr V)
    (k : ℕ) : Res (Arr V) :=
  match a.shape[k]? with
  | none => .error .indexError
  | some n =>
    if n < 2 then .error .valueError
    else .ok ⟨a.shape, fun idx => gradientEven (1 : K) (fun j => a.at' (idx.set k j)) n (idx.getD k 0)⟩

/-- `derivative(axis)` with numpy 1.13 or later. `datahandling.py:1831-1836, 1855-1868`. -/
def Field.derivative (f : Field K V) (axis : ℤ) : Res (Field K V) := do
  let ax ← pyGet f.axes axis
  let g ← Arr.gradient f.matrix ax.grid axis
  let r ← f.replaceData g
  return { r with name := f.name ++ "'" }

end Postpic.Fields
