import Mathlib.Algebra.Order.Field.Basic
import Verif.Model.Histogram

/-!
# Specification of the particle shapes

The textbook assignment functions (Hockney & Eastwood): B-splines of order 0..3 in units of the
cell size. `W s u` is the fraction of the weight of a particle that goes to the cell whose centre
is at distance `u` from the particle.  Only the names of the shapes are shared with the model.
-/

set_option autoImplicit false

namespace Postpic.Spec

open Postpic.Histogram (Shape)

variable {K : Type*} [Field K] [LinearOrder K]

/-- B-spline assignment function of the given order. -/
def W : Shape → K → K
  | .ngp, u => if -(1 / 2) < u ∧ u ≤ 1 / 2 then 1 else 0
  | .tophat, u => if |u| ≤ 1 then 1 - |u| else 0
  | .triangle, u =>
    if |u| ≤ 1 / 2 then 3 / 4 - u ^ 2
    else if |u| ≤ 3 / 2 then (3 / 2 - |u|) ^ 2 / 2 else 0
  | .spline3, u =>
    if |u| ≤ 1 then 2 / 3 - u ^ 2 + |u| ^ 3 / 2
    else if |u| ≤ 2 then (2 - |u|) ^ 3 / 6 else 0

/-- Half of the width of the particle shape (in cells): a particle further than this away from
the border does not reach over it. -/
def radius : Shape → K
  | .ngp => 0 | .tophat => 1 / 2 | .triangle => 1 | .spline3 => 3 / 2

/-- A particle at scaled position `x` lies within the range of `n` cells (for order 0: not
exactly on the border). -/
def InRange (s : Shape) (n : ℕ) (x : K) : Prop :=
  match s with
  | .ngp => 0 < x ∧ x < n
  | _ => 0 ≤ x ∧ x ≤ n

/-- A particle at scaled position `x` is within the range of `n` cells or clearly outside: for order 0 it is not exactly on
the lower border; otherwise it is not less than 3/2 cells below the range and not `2^31` cells or more above, and for order 3 it is
not between 1/2 and 3/2 cells above the range. -/
def Clear (s : Shape) (n : ℕ) (x : K) : Prop :=
  match s with
  | .ngp => x ≠ 0
  | .spline3 => (0 ≤ x ∨ x ≤ -(3 / 2)) ∧ x + 1 / 2 < 2 ^ 31 ∧ (x < n + 1 / 2 ∨ n + 3 / 2 ≤ x)
  | _ => (0 ≤ x ∨ x ≤ -(3 / 2)) ∧ x + 1 / 2 < 2 ^ 31

/-- The border below which the cell of a particle is negative: the C cast rounds towards zero, also after adding 1/2. -/
def lowest : Shape → K
  | .ngp => 0 | .tophat => -(3 / 2) | .triangle => -1 | .spline3 => -(3 / 2)

/-- A particle at scaled position `x` is not just below the range, nor `2^31` cells above. -/
def Sided (s : Shape) (x : K) : Prop :=
  s = .ngp ∨ ((0 ≤ x ∨ x ≤ lowest s) ∧ x + 1 / 2 < 2 ^ 31)

/-- The shape of a particle at scaled position `x` lies within the range of `n` cells. -/
def Inside (s : Shape) (n : ℕ) (x : K) : Prop :=
  InRange s n x ∧ radius s ≤ x ∧ x ≤ n - radius s

/-- Position in units of cells, counted from the lower end of the range. -/
def scaled (range : K × K) (bins : ℕ) (d : K) : K := (d - range.1) / (range.2 - range.1) * bins

end Postpic.Spec

namespace Postpic.Spec

variable {K : Type*} [Field K] [LinearOrder K]

/-- The weights meant by the `weights` argument: all 1 if it is `None`. -/
def weightsOf (n : ℕ) : Option (List K) → List K
  | none => List.replicate n 1
  | some l => l

/-- A usable range: not degenerate (at least one floating point spacing wide). -/
def Proper (spacing : K → K) (r : K × K) : Prop := r.1 ≠ r.2 ∧ spacing r.2 ≤ |r.2 - r.1|

/-- The edges of the bins. -/
def binEdges (r : K × K) (bins : ℕ) : List K :=
  (List.range (bins + 1)).map fun i : ℕ => r.1 + (i : K) * ((r.2 - r.1) / bins)

/-- The array with entries `F i`, `i < n`. -/
def grid1 (n : ℕ) (F : ℕ → K) : List K := (List.range n).map F

/-- The array with entries `F i j`. -/
def grid2 (nx ny : ℕ) (F : ℕ → ℕ → K) : List (List K) :=
  (List.range nx).map fun i => (List.range ny).map fun j => F i j

/-- The array with entries `F i j k`. -/
def grid3 (nx ny nz : ℕ) (F : ℕ → ℕ → ℕ → K) : List (List (List K)) :=
  (List.range nx).map fun i => (List.range ny).map fun j => (List.range nz).map fun k => F i j k

/-- The sums over the first index of an array whose second index runs below `n`. -/
def sumFirst (n : ℕ) (h : List (List K)) : List K := (List.range n).map fun j => (h.map fun row => row.getD j 0).sum

/-- The sums over the first of three indices. -/
def sumFirst3 (n m : ℕ) (h : List (List (List K))) : List (List K) :=
  (List.range n).map fun j => (List.range m).map fun k => (h.map fun l => (l.getD j []).getD k 0).sum

end Postpic.Spec
