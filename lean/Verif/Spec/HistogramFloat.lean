import Verif.Model.HistogramFloat

/-!
# Specification: rounding
-/

set_option autoImplicit false

namespace Postpic.Spec

open Postpic.Histogram

variable {K : Type} [Field K] [LinearOrder K]

/-- What every mode of rounding of every floating point format with at least 33 bits does: the order is kept, whole and
half numbers up to 2³¹ are exact. -/
structure Rounding (rnd : K → Dbl K) : Prop where
  mono : ∀ x y : K, x ≤ y → (rnd x).le (rnd y) = true
  exact : ∀ n : ℤ, |n| ≤ 2 ^ 32 → rnd ((n : K) / 2) = .fin ((n : K) / 2)

/-- The position in units of bins, as it is computed. -/
def computed (rnd : K → Dbl K) (xmin dx d : Dbl K) : Dbl K := Dbl.mul rnd (Dbl.sub rnd d xmin) dx

/-- Neither infinite nor NaN. -/
def finite : Dbl K → Bool
  | .fin _ => true
  | _ => false

/-- The position `x` (in units of bins) is in bin number `i`; the lower end of the range does not belong to the first bin. -/
def inBin (i : ℕ) (x : Dbl K) : Bool := (Dbl.fin 0).lt x && (Dbl.fin (i : K)).le x && x.lt (.fin ((i : K) + 1))

/-- The position `x` (in units of bins) is at least two bins inside of the range. -/
def inside (bins : ℕ) (x : Dbl K) : Prop := (Dbl.fin 2).le x = true ∧ x.le (.fin ((bins : K) - 2)) = true

/-- The standard model of numerical analysis: the relative error of every operation is at most `u` (neither overflow nor underflow). -/
structure Accurate (rnd : K → Dbl K) (u : K) : Prop where
  nonneg : 0 ≤ u
  near : ∀ x : K, ∃ y, rnd x = .fin y ∧ |y - x| ≤ u * |x|

end Postpic.Spec
