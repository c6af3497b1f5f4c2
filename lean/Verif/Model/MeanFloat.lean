import Verif.Spec.Double

/-!
# Model: means of arrays of doubles
-/

set_option autoImplicit false

namespace Postpic.Fields

open Postpic Postpic.Histogram

/-- `np.mean` of the values along the chosen dimensions, used by `Field.mean`: the sum divided by the number of values, as doubles. `add`
is the sum of numpy. `rnd` is the rounding, also of the number of values. NaN without values. `datahandling.py:466-526, 1656`. -/
def meanDbl (rnd : ℚ → Dbl ℚ) (add : List (Dbl ℚ) → Dbl ℚ) (l : List (Dbl ℚ)) : Dbl ℚ :=
  match Dbl.div rnd (add l) (rnd l.length) with
  | .ok x => x
  | .error _ => .nan

end Postpic.Fields
