import Verif.Py.NdArray
import Verif.Model.Field
import Verif.Spec.Axis
import Verif.Spec.Field

/-!
# Specification: moving and reversing the dimensions of a field
-/

set_option autoImplicit false

namespace Postpic.Spec

open Postpic Postpic.Axes

variable {K V : Type}

/-- The axis read from the other end. -/
def reverseAxis (ax : Axis K) : Axis K :=
  ⟨ax.name, ax.unit, ax.gridNode.reverse, ax.grid.reverse, (ax.extent.2, ax.extent.1)⟩

/-- The data `m'` with axes `axes'` is the data `m` with axes `axes` after moving dimensions:
dimension `d` of the result is dimension `σ d` of the input, read from the other end if `s d`.
That is, `m'[idx] = m[j]` whenever `j` at `σ d` is `idx` at `d` (counted from the other end if
`s d`). -/
structure Moved (n : ℕ) (σ : ℕ → ℕ) (s : ℕ → Bool) (m m' : Arr V) (axes axes' : List (Axis K)) :
    Prop where
  dims : m.shape.length = n
  dims' : m'.shape.length = n
  naxes' : axes'.length = n
  shape : ∀ d < n, m'.shape[d]? = m.shape[σ d]?
  axis : ∀ d < n, axes'[d]? = (axes[σ d]?).map fun ax => if s d then reverseAxis ax else ax
  data : ∀ idx j, InBounds m'.shape idx → j.length = n →
    (∀ d < n, ∀ i k, idx[d]? = some i → m.shape[σ d]? = some k →
      j[σ d]? = some (if s d then k - 1 - i else i)) → m'.at' idx = m.at' j

/-- `σ` is a permutation of `0, ..., n - 1`. -/
def IsPerm (n : ℕ) (σ : ℕ → ℕ) : Prop :=
  (∀ d < n, σ d < n) ∧ ∀ d < n, ∀ e < n, σ d = σ e → d = e

end Postpic.Spec

namespace Postpic.Fields

open Postpic Postpic.Axes Postpic.Spec

variable {K V : Type} [_root_.Field K] [LinearOrder K]

/-- A field in order: axes describe the data, every axis has one node more than grid points, all
grid points lie between their nodes, and there is data. -/
structure Field.Sound (f : Field K V) : Prop where
  ok : AxesDescribe f.shape (f.axes.map Axis.len) f.ats.length f.tao.length
  valid : ∀ ax ∈ f.axes, ValidAxis ax.gridNode ax.grid ax.extent
  nonempty : 0 ∉ f.shape

/-- The parts of a field which are not moved. -/
def Field.SameRest (f r : Field K V) : Prop :=
  r.name = f.name ∧ r.unit = f.unit ∧ r.ats = f.ats ∧ r.tao = f.tao

/-- The same field: same data, axes, names, units, states and origins. -/
def Field.Same (f r : Field K V) : Prop :=
  r.matrix.Eqv f.matrix ∧ r.axes = f.axes ∧ f.SameRest r

end Postpic.Fields
