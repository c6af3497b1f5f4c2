import Mathlib.Algebra.BigOperators.Group.Finset.Basic
import Mathlib.Algebra.Field.Defs
import Verif.Model.ReaderGrid

/-!
# Specification: quantities computed from the fields of a dump
-/

set_option autoImplicit false

namespace Postpic.Spec

open Postpic Postpic.Readers

/-- The letters of the components. -/
def letter (k : ℕ) : String := ["x", "y", "z"].getD k ""

/-- The change of the data per cell along dimension `k`, which has `n` points: half the difference of the
two neighbours, or at the border the difference to the only neighbour. -/
def cellSlope {K : Type} [Field K] (a : Arr K) (k n : ℕ) (idx : List ℕ) : K :=
  let i := idx.getD k 0
  if i = 0 then a.at' (idx.set k 1) - a.at' idx
  else if i = n - 1 then a.at' idx - a.at' (idx.set k (n - 2))
  else (a.at' (idx.set k (i + 1)) - a.at' (idx.set k (i - 1))) / 2

section
variable {K : Type} [Field K]

/-- The reader describes a grid with `D` dimensions for this key: offset, number of points and spacing
along the axes. -/
structure ReaderGrid (r : Reader K) (order : AxisKey × AxisKey × AxisKey) (key : String) (D : ℕ) (n : ℕ → ℕ)
    (o h : ℕ → K) : Prop where
  one : 0 < D
  three : D ≤ 3
  points : ∀ d < D, 2 ≤ n d
  reader : ∀ d < D, ∀ axis, [order.1, order.2.1, order.2.2][d]? = some axis →
      r.gridoffset key axis = .ok (o d) ∧ r.gridpoints key axis = .ok (.int (n d)) ∧
      r.gridspacing key axis = .ok (h d) ∧ h d ≠ 0

end

/-- The axes of the field are those the reader describes for this key. -/
def ReadOn {K V : Type} [Field K] [LinearOrder K] (f : ReadField K V) (r : Reader K)
    (order : AxisKey × AxisKey × AxisKey) (key : String) (D : ℕ) : Prop :=
  f.axes.length = D ∧
  ∀ d < D, ∀ axis, [order.1, order.2.1, order.2.2][d]? = some axis →
    ∃ ax, f.axes[d]? = some (.axis ax) ∧ AxisKey.str ax.name = axis ∧ ax.unit = "m" ∧
      r.gridnode key axis = .ok ax.gridNode ∧ r.grid key axis = .ok ax.grid

end Postpic.Spec
