import Verif.Spec.HistogramFloat
import Verif.Spec.Statistics
import Verif.Model.StatisticsFloat

/-!
# Specification: statistics with rounding
-/

set_option autoImplicit false

namespace Postpic.Spec

open Postpic.Histogram Postpic.Statistics

variable {K : Type} [Field K] [LinearOrder K]

/-- The tree adds each of `n` entries once. -/
def Adds (t : SumTree) (n : ℕ) : Prop := t.leaves.Perm (List.range n)

/-- The weighted mean. -/
def wmeanOf (data w : List K) : K := (List.zipWith (· * ·) data w).sum / w.sum

/-- The weighted mean of the absolute values. -/
def magnitude (data w : List K) : K := wmeanOf (data.map abs) w

/-- The weighted variance. -/
def varOf (data w : List K) : K := wmeanOf (data.map fun x => (x - wmeanOf data w) ^ 2) w

/-- What rounding to the numbers of a format does: the order is kept, numbers of the format are not changed. -/
structure Format (rnd : K → Dbl K) : Prop where
  mono : ∀ x y x' y' : K, x ≤ y → rnd x = .fin x' → rnd y = .fin y' → x' ≤ y'
  idem : ∀ x y : K, rnd x = .fin y → rnd y = .fin y

end Postpic.Spec
