import Verif.Model.FieldAssign
import Verif.Spec.FieldIndex

/-!
# Specification of `KeepDim` and of assignments
-/

set_option autoImplicit false

namespace Postpic.Spec

open Postpic Postpic.Axes Postpic.Fields

/-- The positions of `start:stop:step` in a dimension of length `n`, `step ≠ 0`: those reached from the start with steps before the stop. Negative limits count
from the end; a start beyond the ends is moved to the end. With a negative step the positions are in decreasing order. -/
def SlicePositions (n : ℕ) (start stop : Option ℤ) (step : ℤ) (l : List ℕ) : Prop :=
  let norm : ℤ → ℤ := fun i => if i < 0 then i + n else i
  if 0 < step then
    let first := max (norm (start.getD 0)) 0
    l.Pairwise (· < ·) ∧ ∀ p : ℕ, p ∈ l ↔ p < n ∧ first ≤ p ∧ step ∣ p - first ∧ ∀ s, stop = some s → (p : ℤ) < norm s
  else
    let first := match start with
      | none => (n : ℤ) - 1
      | some i => min (norm i) (n - 1)
    l.Pairwise (· > ·) ∧ ∀ p : ℕ, p ∈ l ↔ p < n ∧ (p : ℤ) ≤ first ∧ step ∣ p - first ∧ ∀ s, stop = some s → norm s < (p : ℤ)

section
variable {K : Type} [_root_.Field K] [LinearOrder K]

/-- The number counts from the beginning, or from the end if it is negative. -/
def NumberMeans (n : ℕ) (i : ℤ) (k : ℕ) : Prop := k < n ∧ (k : ℤ) = if 0 ≤ i then i else i + n

/-- The point is the nearest one. -/
def NearestMeans (ax : Axis K) (v : K) (k : ℕ) : Prop :=
  ∃ g, ax.grid[k]? = some g ∧ ∀ (j : ℕ) (g' : K), ax.grid[j]? = some g' → |v - g| ≤ |v - g'|

/-- The positions between two coordinates, including the first one. -/
def RangeMeans (ax : Axis K) (a b : K) (l : List ℕ) : Prop :=
  l.Pairwise (· < ·) ∧ ∀ p, p ∈ l ↔ ∃ x, ax.grid[p]? = some x ∧ ((a ≤ x ∧ x < b) ∨ (x ≤ a ∧ b < x))

/-- The index of a slice. -/
def SliceMeans (ax : Axis K) (a b : Bound K) (step : Option ℤ) (l : List ℕ) : Prop :=
  if a.isCoord || b.isCoord then RangeMeans ax (a.value.getD ax.extent.1) (b.value.getD ax.extent.2) l
  else SlicePositions ax.len a.int b.int (step.getD 1) l

/-- What an index means: a single point, which removes the dimension, or a list of points. `KeepDim` leaves the dimension with a single point. -/
def ItemMeans (ax : Axis K) : Item K → Pick → Prop
  | .plain (.int i), .one k => NumberMeans ax.len i k
  | .plain (.coord v), .one k => NearestMeans ax v k
  | .plain (.slice a b step), .many l => SliceMeans ax a b step l
  | .keepDim (.int i), .many l => ∃ k, l = [k] ∧ NumberMeans ax.len i k
  | .keepDim (.coord v), .many l => ∃ k, l = [k] ∧ NearestMeans ax v k
  | .keepDim (.slice a b step), .many l => SliceMeans ax a b step l
  | _, _ => False

/-- The range of coordinates is in the direction of the axis, at least one limit is inside and there is a point. -/
def RangeOk (ax : Axis K) (a b : Bound K) : Prop := KeyOk ax (.range a.value b.value)

/-- Slices: the step is not zero, or the limits are coordinates without a step. -/
def SliceOk (ax : Axis K) (a b : Bound K) (step : Option ℤ) : Prop :=
  if a.isCoord || b.isCoord then step = none ∧ RangeOk ax a b else step ≠ some 0

/-- The indices for assignments: everything which exists, apart from `KeepDim(-1)` and ranges of coordinates against the direction of the axis. -/
def ItemOk (ax : Axis K) : Item K → Prop
  | .plain (.int i) => -(ax.len : ℤ) ≤ i ∧ i < ax.len
  | .keepDim (.int i) => -(ax.len : ℤ) ≤ i ∧ i < ax.len ∧ i ≠ -1
  | .plain (.coord v) | .keepDim (.coord v) => min ax.extent.1 ax.extent.2 ≤ v ∧ v ≤ max ax.extent.1 ax.extent.2
  | .plain (.slice a b step) | .keepDim (.slice a b step) => SliceOk ax a b step

/-- The indices for `field[key]`: slices have no step or step 1, do not begin with a negative number, do not end with 0 and contain a point; the number in `KeepDim` is
not negative. -/
def GetOk (ax : Axis K) : Item K → Prop
  | .plain (.int i) => -(ax.len : ℤ) ≤ i ∧ i < ax.len
  | .keepDim (.int i) => 0 ≤ i ∧ i < ax.len
  | .plain (.coord v) | .keepDim (.coord v) => min ax.extent.1 ax.extent.2 ≤ v ∧ v ≤ max ax.extent.1 ax.extent.2
  | .plain (.slice a b step) | .keepDim (.slice a b step) =>
    if a.isCoord || b.isCoord then step = none ∧ RangeOk ax a b
    else (step = none ∨ step = some 1) ∧ KeyOk ax (.slice ⟨a.int, b.int, false⟩)

/-- Indices which are refused: numbers out of range, coordinates outside of the extent, and ranges of coordinates with a step. -/
def ItemRefused (ax : Axis K) : Item K → Prop
  | .plain (.int i) => i < -(ax.len : ℤ) ∨ (ax.len : ℤ) ≤ i
  | .keepDim (.int _) => False
  | .plain (.coord v) | .keepDim (.coord v) => v < min ax.extent.1 ax.extent.2 ∨ max ax.extent.1 ax.extent.2 < v
  | .plain (.slice a b step) | .keepDim (.slice a b step) => (a.isCoord || b.isCoord) = true ∧ step ≠ none

/-- A selection as positions. -/
def Sel.positions : Sel → Pick
  | .one k => .one k
  | .part s t => .many ((List.range t).drop s)

end

/-- The element `o` of an array of the given shape is used for the index `j` in broadcasting: the last numbers agree, and dimensions of length one are repeated. -/
def Broadcasts (shape o j : List ℕ) : Prop :=
  InBounds shape o ∧ ∀ (k i : ℕ), o.reverse[k]? = some i → shape.reverse[k]? ≠ some 1 → j.reverse[k]? = some i

/-- The shape fits: every dimension counted from the last one has the same length or length one; further dimensions have length one. -/
def Fits (shape target : List ℕ) : Prop :=
  ∀ (k n : ℕ), shape.reverse[k]? = some n → n = 1 ∨ target.reverse[k]? = some n

end Postpic.Spec
