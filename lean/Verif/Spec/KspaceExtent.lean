import Verif.Model.KspaceExtent
import Verif.Spec.Kspace
import Verif.Spec.Stagger

/-!
# Specification: parts of fields
-/

set_option autoImplicit false

namespace Postpic.Spec

open Postpic Postpic.Axes Postpic.Fields

/-- `g` is the part of the field `f` which begins at the index `lo`. -/
structure PartOf {V : Type} (f g : Field ℝ V) (lo : List ℕ) : Prop where
  data : ∀ idx, InBounds g.shape idx → g.matrix.at' idx = f.matrix.at' (List.zipWith (· + ·) lo idx)
  name : g.name = f.name
  unit : g.unit = f.unit
  ats : g.ats = f.ats
  tao : g.tao = f.tao

/-- The limits `[xmin, xmax, ymin, ...]` fit to the grid of the points `x0 d + i * h d`: one of the two limits is inside of the
box, and there are two neighbouring points between them. -/
structure ExtentFits (ext : List ℝ) (shape : List ℕ) (x0 h : ℕ → ℝ) : Prop where
  count : ext.length = 2 * shape.length
  inside : ∀ d a b, ext[2 * d]? = some a → ext[2 * d + 1]? = some b →
    (x0 d - h d / 2 ≤ a ∧ a ≤ x0 d + ((shape.getD d 0 : ℕ) - 1 / 2) * h d) ∨
    (x0 d - h d / 2 ≤ b ∧ b ≤ x0 d + ((shape.getD d 0 : ℕ) - 1 / 2) * h d)
  points : ∀ d a b, ext[2 * d]? = some a → ext[2 * d + 1]? = some b →
    ∃ i : ℕ, i + 1 < shape.getD d 0 ∧ a ≤ x0 d + i * h d ∧ x0 d + (i + 1 : ℕ) * h d < b

/-- The `n d` points from the number `lo d` on are exactly the points between the limits. -/
def PointsWithin (ext : List ℝ) (shape lo n : List ℕ) (x0 h : ℕ → ℝ) : Prop :=
  ∀ d a b (i : ℕ), ext[2 * d]? = some a → ext[2 * d + 1]? = some b → i < shape.getD d 0 →
    ((lo.getD d 0 ≤ i ∧ i < lo.getD d 0 + n.getD d 0) ↔ (a ≤ x0 d + i * h d ∧ x0 d + i * h d < b))

/-- The field `S` is the field `f` interpolated linearly at the grid which starts at `x0`. -/
structure LinearAt (f S : Field ℝ ℂ) (shape : List ℕ) (x0 h : ℕ → ℝ) : Prop where
  grid : OnGrid S shape false x0 h
  name : S.name = f.name
  unit : S.unit = f.unit
  data : ∀ idx p, PointAt (S.axes.map (·.grid)) idx p →
    Multilinear (f.axes.map (·.grid)) f.matrix.at' p (S.matrix.at' idx)

end Postpic.Spec
