import Verif.Model.PadArg

/-!
# The documented forms of a pad width

`Field.pad` refers to `np.pad`, whose argument is broadcast to one pair (before, after) per dimension.
-/

set_option autoImplicit false

namespace Postpic.Spec

open Postpic.Fields

variable {K : Type}

/-- The entries which the caller wrote. -/
def entriesOf : PadArg K → List (PadEntry K)
  | .num w => [.num w]
  | .list l => l
  | .tuple l => l
  | .array l => l.map fun n => .num (.cells n)

/-- What the documentation of numpy says, for `n` dimensions: `((before_1, after_1), ... (before_n, after_n))`; `((before, after),)`
for all dimensions; `(pad,)` or `pad` for all dimensions and both sides. (`(before, after)`, also for all dimensions, is
`NumpyPair`.) -/
inductive NumpyWidths (n : ℕ) : List (PadEntry K) → List (PadWidth K × PadWidth K) → Prop
  | each (ws : List (PadWidth K × PadWidth K)) (h : ws.length = n) : NumpyWidths n (ws.map fun p => .seq [p.1, p.2]) ws
  | eachBoth (ws : List (PadWidth K)) (h : ws.length = n) : NumpyWidths n (ws.map fun w => .seq [w]) (ws.map fun w => (w, w))
  | pair (w w' : PadWidth K) : NumpyWidths n [.seq [w, w']] (List.replicate n (w, w'))
  | both (w : PadWidth K) : NumpyWidths n [.num w] (List.replicate n (w, w))

/-- `(before, after)` for all dimensions. -/
inductive NumpyPair (n : ℕ) : List (PadEntry K) → List (PadWidth K × PadWidth K) → Prop
  | mk (w w' : PadWidth K) : NumpyPair n [.num w, .num w'] (List.replicate n (w, w'))

end Postpic.Spec
