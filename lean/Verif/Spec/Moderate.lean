import Verif.Spec.Double

/-!
# Numbers far from underflow and overflow
-/

set_option autoImplicit false

namespace Postpic.Spec

open Postpic.Histogram

/-- The absolute value of `x` is between `2^a` and `2^b`, or `x` is 0. -/
def Moderate (a b : ℤ) (x : ℚ) : Prop := x = 0 ∨ (2 : ℚ) ^ a ≤ |x| ∧ |x| ≤ (2 : ℚ) ^ b

instance (a b : ℤ) (x : ℚ) : Decidable (Moderate a b x) := inferInstanceAs (Decidable (_ ∨ _))

/-- Doubles of moderate size. -/
def ModerateDoubles (a b : ℤ) (l : List ℚ) : Prop := ∀ x ∈ l, double x = .fin x ∧ Moderate a b x

instance (a b : ℤ) (l : List ℚ) : Decidable (ModerateDoubles a b l) := inferInstanceAs (Decidable (∀ _ ∈ _, _))

end Postpic.Spec
