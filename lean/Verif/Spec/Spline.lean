import Mathlib.Algebra.BigOperators.Group.Finset.Basic
import Mathlib.Algebra.Order.Floor.Ring
import Mathlib.Data.Int.Interval
import Mathlib.Data.Real.Archimedean

/-!
# Specification: splines
-/

set_option autoImplicit false

namespace Postpic.Spec

noncomputable section

/-- The B-spline of degree `n` with knots at distance one, symmetric about 0 (recursion of Cox and de Boor). -/
def bspline : ℕ → ℝ → ℝ
  | 0, u => if -(1 / 2) ≤ u ∧ u < 1 / 2 then 1 else 0
  | n + 1, u => (((n + 2 : ℕ) / 2 + u) * bspline n (u + 1 / 2) + ((n + 2 : ℕ) / 2 - u) * bspline n (u - 1 / 2)) / (n + 1 : ℕ)

/-- The number of the point `j` of the line in an array of `n` points which is continued by mirroring at its first and last
point. -/
def mirrored (n : ℕ) (j : ℤ) : ℕ :=
  if n ≤ 1 then 0
  else
    let r := j % (2 * n - 2)
    if r < n then r.toNat else (2 * n - 2 - r).toNat

/-- The spline of degree `order` with the coefficients `c` at the points of an array, which is mirrored at its borders: the sum of all
B-splines. Those more than six points away are 0. -/
def splineAt (order : ℕ) : List ℕ → (List ℕ → ℝ) → List ℝ → ℝ
  | n :: shape, c, x :: xs =>
    ∑ j ∈ Finset.Icc (⌊x⌋ - 6) (⌊x⌋ + 6), bspline order (x - j) * splineAt order shape (fun t => c (mirrored n j :: t)) xs
  | _, c, _ => c []

end

end Postpic.Spec
