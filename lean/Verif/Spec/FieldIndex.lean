import Mathlib.Algebra.Order.Group.Abs
import Verif.Spec.FieldMoves
import Verif.Spec.FieldReduce

/-!
# Specification of indexing a field

What an index of one dimension means, and which sample of the original field is found at a position
of the result.
-/

set_option autoImplicit false

namespace Postpic.Spec

open Postpic Postpic.Axes Postpic.Fields

/-- What is selected along one dimension: a single point (the dimension is removed) or the points
`s, s+1, ..., t-1`. -/
inductive Sel where
  | one (k : ℕ)
  | part (s t : ℕ)
  deriving DecidableEq

/-- The dimension is removed. -/
def Sel.isOne : Sel → Bool
  | .one _ => true
  | .part _ _ => false

/-- The lengths of the remaining dimensions. -/
def selShape : List Sel → List ℕ
  | [] => []
  | .one _ :: l => selShape l
  | .part s t :: l => (t - s) :: selShape l

/-- The index in the original array that belongs to an index of the result. -/
def selIdx : List Sel → List ℕ → List ℕ
  | [], _ => []
  | .one k :: l, idx => k :: selIdx l idx
  | .part s _ :: l, i :: idx => (s + i) :: selIdx l idx
  | .part s _ :: l, [] => s :: selIdx l []

section
variable {K : Type} [_root_.Field K] [LinearOrder K]

/-- The indices for which the code works: integers within the length, coordinates within the extent,
slices with step 1 that do not begin with a negative number, do not end with 0 and contain a point,
and ranges of coordinates in the direction of the axis with at least one limit inside and at least
one point. -/
def KeyOk (ax : Axis K) : Key K → Prop
  | .int i => -(ax.len : ℤ) ≤ i ∧ i < ax.len
  | .coord v => min ax.extent.1 ax.extent.2 ≤ v ∧ v ≤ max ax.extent.1 ax.extent.2
  | .slice s => s.backward = false ∧ (∀ i, s.start = some i → 0 ≤ i) ∧ s.stop ≠ some 0 ∧
      sliceFwd (List.range ax.len) s.start s.stop ≠ []
  | .range a b =>
    let a := a.getD ax.extent.1
    let b := b.getD ax.extent.2
    (ax.extent.1 < ax.extent.2 ∧ a ≤ b ∧
      ((ax.extent.1 ≤ a ∧ a ≤ ax.extent.2) ∨ (ax.extent.1 ≤ b ∧ b ≤ ax.extent.2)) ∧
      ∃ x ∈ ax.grid, a ≤ x ∧ x < b) ∨
    (ax.extent.2 < ax.extent.1 ∧ b < a ∧
      ((ax.extent.2 ≤ a ∧ a ≤ ax.extent.1) ∨ (ax.extent.2 ≤ b ∧ b ≤ ax.extent.1)) ∧
      ∃ x ∈ ax.grid, x ≤ a ∧ b < x)

/-- What the index selects: the point with this number (negative numbers count from the end), the
point nearest to the coordinate, the points of the python slice, the points between the two
coordinates, including the first one. -/
def KeyMeans (ax : Axis K) : Key K → Sel → Prop
  | .int i, .one k => (k : ℤ) = if 0 ≤ i then i else i + ax.len
  | .coord v, .one k => ∃ g, ax.grid[k]? = some g ∧
      ∀ (j : ℕ) (g' : K), ax.grid[j]? = some g' → |v - g| ≤ |v - g'|
  | .slice s, .part m n => sliceFwd (List.range ax.len) s.start s.stop = (List.range n).drop m
  | .range a b, .part m n => ∀ (i : ℕ) (x : K), ax.grid[i]? = some x →
      ((m ≤ i ∧ i < n) ↔ (a.getD ax.extent.1 ≤ x ∧ x < b.getD ax.extent.2) ∨
        (x ≤ a.getD ax.extent.1 ∧ b.getD ax.extent.2 < x))
  | _, _ => False

/-- The axis of a remaining dimension: the selected points with the nodes around them. -/
def SubAxis (q : Axis K × Sel) (ax' : Axis K) : Prop :=
  match q.2 with
  | .one _ => False
  | .part s t => ax'.name = q.1.name ∧ ax'.unit = q.1.unit ∧ s < t ∧ t ≤ q.1.len ∧
      ax'.grid = (q.1.grid.take t).drop s ∧ ax'.gridNode = (q.1.gridNode.take (t + 1)).drop s ∧
      ValidAxis ax'.gridNode ax'.grid ax'.extent

end

end Postpic.Spec
