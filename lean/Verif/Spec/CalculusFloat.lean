import Mathlib.Algebra.Order.Group.Abs
import Verif.Spec.StatisticsFloat

/-!
# Specification: sums and integrals with rounding
-/

set_option autoImplicit false

namespace Postpic.Spec

open Postpic.Histogram Postpic.Statistics

variable {K : Type} [Field K] [LinearOrder K]

/-- `add` sums up lists of at most `n` numbers, in any order in which each number takes part in at most `d` additions. The order may be
another one for each list. -/
def Summation [FloorRing K] (rnd : K → Dbl K) (add : List (Dbl K) → Dbl K) (n d : ℕ) : Prop :=
  ∀ l : List (Dbl K), l.length ≤ n → ∃ t : SumTree, Adds t l.length ∧ t.depth ≤ d ∧ add l = sumF rnd l t

end Postpic.Spec
