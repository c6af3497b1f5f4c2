import Verif.Model.Field

/-!
# Model of reductions with the argument `out`

`field.sum(axis, out=...)` and the other reductions (`postpic/datahandling.py:466-526`) for an `out` which is not `None`.
The argument may be changed even if an exception is raised, so the model returns both.
-/

set_option autoImplicit false

namespace Postpic.Fields

open Postpic Postpic.Axes

variable {K V : Type} [_root_.Field K] [LinearOrder K]

/-- What may be passed as `out` (other than `None`). numpy refuses everything else. -/
inductive Out (K V : Type) where
  | field (f : Field K V)
  | array (a : Arr V)
  | tuple (l : List (Field K V ⊕ Arr V))

/-- The data of the argument before and after. -/
def Out.data : Out K V → List (Arr V)
  | .field f => [f.matrix]
  | .array a => [a]
  | .tuple l => l.map fun x => match x with
    | .inl f => f.matrix
    | .inr a => a

/-- `self.matrix.<method>(axis=axis, out=a)`: numpy refuses an array whose shape is not that of the result, the result is written to it
otherwise. The types of the numbers are not modelled. `datahandling.py:508`. -/
def reduceInto (red : List V → V) (m : Arr V) (axis : Option (List ℤ)) (keepdims : Bool) (a : Arr V) : Res (Arr V) := do
  let sel ← normAxes m.shape.length axis
  let r := if keepdims then m.reduceKeep red sel else m.reduce red sel
  if a.shape = r.shape then return r else throw .valueError

/-- The truth of an array, `if out:` in `datahandling.py:511`: that of its only number; an array without numbers is false (numpy before
version 2.2, a `DeprecationWarning`), several numbers raise a ValueError. -/
def truthOf [Zero V] [DecidableEq V] (a : Arr V) : Res Bool :=
  match a.shape.foldr (· * ·) 1 with
  | 0 => .ok false
  | 1 => .ok (decide (a.at' (a.shape.map fun _ => 0) ≠ 0))
  | _ => .error .valueError

/-- `field.<method>(axis, out, keepdims)`: the argument afterwards, and `none` if this is what is returned, the exception otherwise.
A `Field` has neither `__bool__` nor `__len__` and counts as true. A tuple is replaced by
`tuple(o.matrix if isinstance(o, type(self)) else o)`, which asks for the variable `o` before it is set (`:503`); so does the code after
`if out:` with the variable `axes`, which is only set without `out` (`:481, :516-524`). `datahandling.py:466-526`. -/
def Field.reduceOut [Zero V] [DecidableEq V] (red : List V → V) (f : Field K V) (axis : Option (List ℤ)) (keepdims : Bool) :
    Out K V → Out K V × Option Err
  | .field g => match reduceInto red f.matrix axis keepdims g.matrix with
    | .error e => (.field g, some e)
    | .ok m => (.field { g with matrix := m }, none)
  | .array a => match reduceInto red f.matrix axis keepdims a with
    | .error e => (.array a, some e)
    | .ok m => (.array m, match truthOf m with
      | .error e => some e
      | .ok true => none
      | .ok false => some .nameError)
  | .tuple l => (.tuple l, some .nameError)

end Postpic.Fields
