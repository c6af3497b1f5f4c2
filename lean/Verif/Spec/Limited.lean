import Mathlib.Algebra.Order.Group.Abs
import Verif.Spec.HistogramFloat

/-!
# Specification: rounding with limits of the exponent
-/

set_option autoImplicit false

namespace Postpic.Spec

open Postpic.Histogram

variable {K : Type} [Field K] [LinearOrder K]

/-- The standard model of numerical analysis for numbers with a largest and a smallest exponent: the relative error is at most `u` for results
from `E` (the smallest normal number) to `B`. Smaller results stay small, with the right sign. Sums of numbers which are not changed by the
rounding have a small relative error also if they are small. -/
structure Limited (rnd : K → Dbl K) (u E B : K) : Prop where
  nonneg : 0 ≤ u
  near : ∀ x : K, E ≤ |x| → |x| < B → ∃ y, rnd x = .fin y ∧ |y - x| ≤ u * |x|
  sum : ∀ a b : K, rnd a = .fin a → rnd b = .fin b → |a + b| < B → ∃ y, rnd (a + b) = .fin y ∧ |y - (a + b)| ≤ u * |a + b|
  neg : ∀ a : K, rnd a = .fin a → rnd (-a) = .fin (-a)
  large : rnd B = .fin B
  small : ∀ x : K, |x| < E → ∃ y, rnd x = .fin y ∧ |y| ≤ E ∧ (0 < y → 0 < x)

end Postpic.Spec
