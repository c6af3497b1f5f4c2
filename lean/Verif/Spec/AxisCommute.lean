import Mathlib.Data.List.Basic
import Mathlib.Data.Nat.Notation

/-!
# Specification: methods which collect values
-/

set_option autoImplicit false

namespace Postpic.Spec

/-- A method for a list of values (sum, mean, maximum, ...) which does not depend on the order of the values and which gives
the same for all values at once and for the results of groups of equal size. -/
structure Collects {V : Type} (red : List V → V) : Prop where
  order : ∀ l m : List V, l.Perm m → red l = red m
  groups : ∀ (n : ℕ) (L : List (List V)), 0 < n → L ≠ [] → (∀ l ∈ L, l.length = n) → red L.flatten = red (L.map red)

/-- The number of a dimension after dimension `k` has been removed. -/
def numberWithout (k i : ℕ) : ℕ := if k < i then i - 1 else i

end Postpic.Spec
