import Verif.Model.Plotter

/-!
# Specification of pictures
-/

set_option autoImplicit false

namespace Postpic.Spec

open Postpic Postpic.Axes Postpic.Fields Postpic.Plot

/-- Between `x0` and `x1` on the horizontal axis and between `y0` and `y1` on the vertical axis the picture has the colour of the value `v`.
An image divides the space between its borders into rectangles of equal size. -/
def Shows (d : Drawing) (x0 x1 y0 y1 : ℝ) (v : Option ℝ) : Prop :=
  match d with
  | .image rows cols values left right bottom top => ∃ row < rows, ∃ col < cols, values row col = v ∧
      x0 = left + (col : ℝ) * ((right - left) / (cols : ℝ)) ∧ x1 = left + ((col : ℝ) + 1) * ((right - left) / (cols : ℝ)) ∧
      y0 = bottom + (row : ℝ) * ((top - bottom) / (rows : ℝ)) ∧ y1 = bottom + ((row : ℝ) + 1) * ((top - bottom) / (rows : ℝ))
  | .mesh x y values => ∃ row col : ℕ, values row col = v ∧ x[col]? = some x0 ∧ x[col + 1]? = some x1 ∧
      y[row]? = some y0 ∧ y[row + 1]? = some y1

/-- The colour value of `v` on a linear or logarithmic scale; zero has none on a logarithmic one. -/
noncomputable def colourValue (logScale : Bool) (v : ℝ) : Option ℝ :=
  if logScale then (if v = 0 then none else some (Real.log v / Real.log 10)) else some v

/-- A name with its unit in brackets, if there is one. -/
def nameWithUnit (name unit : String) : String := if unit.isEmpty then name else name ++ " [" ++ unit ++ "]"

/-- The picture `fig` shows the values `v i j` of the cells of two axes with `m` and `n` points, whose nodes are `x` and `y`. The scale is logarithmic if
this is asked for, all values are non-negative and some are positive; the limits of the colours are the given ones, on a linear scale otherwise
zero is in their middle and they are reached. -/
def PictureOf (fig : Figure) (v : ℕ → ℕ → ℝ) (m n : ℕ) (x y : List ℝ) (xlabel ylabel title : String) (log10plot : Bool)
    (clim : Option (ℝ × ℝ)) : Prop :=
  ∃ d lg lim, fig = .picture d lg lim xlabel ylabel title ∧
    (lg = true ↔ log10plot = true ∧ (∀ i < m, ∀ j < n, 0 ≤ v i j) ∧ ∃ i < m, ∃ j < n, 0 < v i j) ∧
    (∀ i j x0 x1 y0 y1, x[i]? = some x0 → x[i + 1]? = some x1 → y[j]? = some y0 → y[j + 1]? = some y1 →
      Shows d x0 x1 y0 y1 (colourValue lg (v i j))) ∧
    (∀ c, clim = some c → lim = some c) ∧ (clim = none → lg = true → lim = none) ∧
    (clim = none → lg = false → ∃ M, lim = some (-M, M) ∧ (∀ i < m, ∀ j < n, |v i j| ≤ M) ∧ ∃ i < m, ∃ j < n, |v i j| = M)

/-- The line `fig` connects the points with the positions `x` and the values `v i`. -/
def LineOf (fig : Figure) (v : ℕ → ℝ) (n : ℕ) (x : List ℝ) (xlabel title : String) (log10plot : Bool) : Prop :=
  ∃ lg, fig = .line (x.zip ((List.range n).map v)) lg xlabel title ∧
    (lg = true ↔ log10plot = true ∧ (∀ i < n, 0 ≤ v i) ∧ ∃ i < n, 0 < v i)

end Postpic.Spec
