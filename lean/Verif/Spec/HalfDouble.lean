import Verif.Spec.Double
import Verif.Spec.FieldMoves

/-!
# Fields of doubles which can be added without overflow
-/

set_option autoImplicit false

namespace Postpic.Spec

open Postpic Postpic.Fields Postpic.Histogram

/-- A double whose sum with another one like it is finite. -/
def Addable (x : ℚ) : Prop := double x = .fin x ∧ |x| < 2 ^ 1022

instance (x : ℚ) : Decidable (Addable x) := inferInstanceAs (Decidable (_ ∧ _))

/-- All samples are such doubles from `lo` to `hi`, and all grid points are such doubles. -/
structure AddableField (lo hi : ℚ) (f : Field ℚ (Dbl ℚ)) : Prop where
  points : ∀ ax ∈ f.axes, ∀ x ∈ ax.grid, Addable x
  values : ∀ idx, InBounds f.shape idx → ∃ v, f.matrix.at' idx = .fin v ∧ Addable v ∧ lo ≤ v ∧ v ≤ hi

end Postpic.Spec
