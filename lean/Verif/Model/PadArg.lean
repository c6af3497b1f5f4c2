import Verif.Model.Field

/-!
# Model of the forms of the argument `pad_width`

`Field.pad` of `Model/Field.lean` takes a pair of widths for each dimension; here are the forms which the code turns into these pairs.
The list of the caller is part of the result, because `pad_width *= self.dimensions` changes lists and arrays in place.
Simplification: an entry without numbers is refused at once (in the code: when numpy sees it).
-/

set_option autoImplicit false

namespace Postpic.Fields

open Postpic Postpic.Axes

/-- The width for one dimension: a number, or a sequence of numbers. -/
inductive PadEntry (K : Type) where
  | num (w : PadWidth K)
  | seq (ws : List (PadWidth K))

/-- What the caller passes: a number, a list, a tuple, or an array of integers. -/
inductive PadArg (K : Type) where
  | num (w : PadWidth K)
  | list (l : List (PadEntry K))
  | tuple (l : List (PadEntry K))
  | array (l : List ℤ)

/-- `l * n` for sequences. -/
def pyRepeat {α : Type} (l : List α) (n : ℤ) : List α := (List.replicate n.toNat l).flatten

variable {K V : Type}

/-- The entries after `if len(pad_width) == 1: pad_width *= self.dimensions`, and the object of the caller.
`datahandling.py:1118-1122`. -/
def PadArg.repeated (dims : ℤ) : PadArg K → PadArg K × List (PadEntry K)
  | .num w => (.num w, pyRepeat [.num w] dims)
  | .list l => if l.length = 1 then (.list (pyRepeat l dims), pyRepeat l dims) else (.list l, l)
  | .tuple l => (.tuple l, if l.length = 1 then pyRepeat l dims else l)
  | .array l =>
    let l' := if l.length = 1 then l.map (· * dims) else l
    (.array l', l'.map fun n => .num (.cells n))

/-- The pair of widths of one dimension. `datahandling.py:1133-1140`. -/
def PadEntry.pair : PadEntry K → Res (PadWidth K × PadWidth K)
  | .num w => .ok (w, w)
  | .seq [w] => .ok (w, w)
  | .seq [w, w'] => .ok (w, w')
  | .seq _ => .error .valueError

variable [_root_.Field K] [LinearOrder K]

/-- `pad(pad_width, 'constant', constant_values=c)`: the object passed as `pad_width` after the call, and the result.
`datahandling.py:1102-1169`. -/
def Field.padWith [FloorRing K] (spl : Splines K) (f : Field K V) (arg : PadArg K) (c : V) : PadArg K × Res (Field K V) :=
  if f.axes = [] then (arg, .error .valueError)
  else
    let r := arg.repeated f.dims
    (r.1, do
      if (r.2.length : ℤ) ≠ f.dims then throw .valueError
      let a ← ((f.axes.zip f.tao).zip r.2).mapM fun q => do padAxis spl q.1.1 q.1.2 (← q.2.pair)
      if a.any fun q => decide (q.2.2.1 < 0 ∨ q.2.2.2 < 0) then throw .valueError
      return { f with
        matrix := f.matrix.pad (a.map fun q => (q.2.2.1.toNat, q.2.2.2.toNat)) c
        axes := a.map (·.1), tao := a.map (·.2.1) })

end Postpic.Fields
