import Verif.Spec.FieldMoves
import Verif.Model.Io

/-!
# Specification of the layout of VTK files
-/

set_option autoImplicit false

namespace Postpic.Spec

open Postpic Postpic.Axes Postpic.Io

/-- The number of a grid point in a legacy VTK file: the first index runs fastest. -/
def vtkPoint : List ℕ → List ℕ → ℕ
  | n :: shape, i :: idx => i + n * vtkPoint shape idx
  | _, _ => 0

/-- The coordinates of the point with index `idx` as described in the file. -/
def vtkCoordinates {K : Type} [Field K] : DataSet K → List ℕ → List K
  | .structuredPoints _ origin spacing, idx =>
    List.zipWith (fun (o : K) (q : K × ℕ) => o + (q.2 : K) * q.1) origin (spacing.zip idx)
  | .rectilinearGrid grid, idx => List.zipWith (fun g i => g.getD i 0) grid idx

/-- The lengths of the grid as described in the file. -/
def vtkDimensions {K : Type} : DataSet K → List ℕ
  | .structuredPoints d _ _ => d
  | .rectilinearGrid grid => grid.map List.length

/-- The numbers agree up to the tolerances which numpy uses for comparisons (`1e-8` plus `1e-5` of the second). -/
def Close {K : Type} [Field K] [LinearOrder K] (x y : K) : Prop := |x - y| ≤ 1 / 10 ^ 8 + 1 / 10 ^ 5 * |y|

/-- The lists differ at some position. -/
def Apart {K : Type} [Field K] [LinearOrder K] (a b : List K) : Prop := ∃ (i : ℕ) (x y : K), a[i]? = some x ∧ b[i]? = some y ∧ ¬ Close x y

/-- The fields are not on the same grid: the number of axes differs, or two axes have different limits, grid points or cell
boundaries. -/
def GridsDiffer {K : Type} [Field K] [LinearOrder K] (a b : List (Axis K)) : Prop :=
  a.length ≠ b.length ∨ ∃ (d : ℕ) (p q : Axis K), a[d]? = some p ∧ b[d]? = some q ∧
    (¬ Close p.extent.1 q.extent.1 ∨ ¬ Close p.extent.2 q.extent.2 ∨ Apart p.gridNode q.gridNode ∨ Apart p.grid q.grid)

end Postpic.Spec
