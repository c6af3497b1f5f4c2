import Verif.Model.FieldProps
import Verif.Spec.FieldMoves
import Verif.Spec.FieldResolution

/-!
# What the properties of fields mean
-/

set_option autoImplicit false

namespace Postpic.Spec

open Postpic Postpic.Axes Postpic.Fields

variable {K V : Type} [_root_.Field K] [LinearOrder K]

/-- `g` is the field `f` with new limits: the data, the names and units and the numbers of points are the same, and the axis
number `d` has cells of equal size from `ext[2 d]` to `ext[2 d + 1]`. -/
structure HasExtent (f g : Field K V) (ext : List K) : Prop where
  data : g.matrix = f.matrix
  rest : f.SameRest g
  naxes : g.axes.length = f.axes.length
  axis : ∀ (d : ℕ) (ax : Axis K), f.axes[d]? = some ax → ∃ ax' a b, g.axes[d]? = some ax' ∧ ext[2 * d]? = some a ∧
    ext[2 * d + 1]? = some b ∧ ax'.name = ax.name ∧ ax'.unit = ax.unit ∧ ax'.len = ax.len ∧ ax'.extent = (a, b) ∧
    EvenAxis ax' a ((b - a) / ax.len)

/-- The same metadata: name, unit, axes, states and origins, and data of the same shape. -/
structure SameMeta {K V W : Type} (f : Field K V) (r : Field K W) : Prop where
  name : r.name = f.name
  unit : r.unit = f.unit
  axes : r.axes = f.axes
  ats : r.ats = f.ats
  tao : r.tao = f.tao
  shape : r.matrix.shape = f.matrix.shape

/-- The value of an expression, if every name has a value. -/
def valueOf {V : Type} (env : String → Option V) : NeExpr V → Option V
  | .num c => some c
  | .var name => env name
  | .un g e => (valueOf env e).map g
  | .bin g e₁ e₂ => match valueOf env e₁, valueOf env e₂ with
    | some x, some y => some (g x y)
    | _, _ => none

/-- The variables which occur in an expression. -/
def namesIn {V : Type} : NeExpr V → List String
  | .num _ => []
  | .var name => [name]
  | .un _ e => namesIn e
  | .bin _ e₁ e₂ => namesIn e₁ ++ namesIn e₂

/-- A variable visible to the caller: a local one, otherwise a global one. -/
def Visible {V : Type} (fr : Frame V) (name : String) : Option (Arr V) :=
  match fr.kind with
  | .top => fr.globals.lookup name
  | _ => (fr.locals.lookup name).or (fr.globals.lookup name)

/-- The value of a variable at a position of the grid: an array of this shape has one value per position, a number the same
everywhere. -/
def valueAt {V : Type} (shape idx : List ℕ) (a : Arr V) : Option V :=
  if a.shape = shape then some (a.at' idx) else if a.shape = [] then some (a.at' []) else none

end Postpic.Spec
