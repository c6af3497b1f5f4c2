import Mathlib.Algebra.Field.Defs
import Mathlib.Algebra.Order.Ring.Defs

/-!
# Specification: particles close to the edges of a bin
-/

set_option autoImplicit false

namespace Postpic.Spec

variable {K : Type} [Field K] [LinearOrder K]

/-- The exact position of a particle at `d` in units of bins. -/
def place (xmin xmax : K) (bins : ℕ) (d : K) : K := (d - xmin) / (xmax - xmin) * bins

/-- Inside of the bins `i` to `j - 1` and not close to an end: `q` is a number below 1. -/
def surelyIn (q : K) (i j : ℕ) (t : K) : Prop := 0 < t ∧ (i : K) ≤ t * q ∧ t < j * q

/-- Inside of the bins `i` to `j - 1` or close to an end. -/
def maybeIn (q : K) (i j : ℕ) (t : K) : Prop := 0 < t ∧ (i : K) * q ≤ t ∧ t * q < j

instance (q : K) (i j : ℕ) (t : K) : Decidable (surelyIn q i j t) := by unfold surelyIn; infer_instance
instance (q : K) (i j : ℕ) (t : K) : Decidable (maybeIn q i j t) := by unfold maybeIn; infer_instance

end Postpic.Spec
