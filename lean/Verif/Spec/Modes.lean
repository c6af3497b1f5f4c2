import Mathlib.Analysis.SpecialFunctions.Trigonometric.Basic
import Mathlib.Algebra.BigOperators.Intervals

/-!
# Specification: azimuthal modes
-/

set_option autoImplicit false

namespace Postpic.Spec

/-- The real Fourier series with the coefficients `a 0`, and `a m`, `b m` for the modes `m = 1, ..., M`, at the angle
`theta`. -/
noncomputable def azimuthalSeries (M : ℕ) (a b : ℕ → ℝ) (theta : ℝ) : ℝ :=
  a 0 + ∑ m ∈ Finset.Icc 1 M, (a m * Real.cos (m * theta) + b m * Real.sin (m * theta))

end Postpic.Spec
