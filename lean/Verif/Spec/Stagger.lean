import Mathlib.Algebra.Module.Defs
import Mathlib.Algebra.Field.Defs
import Mathlib.Order.Defs.LinearOrder
import Mathlib.Data.Nat.Notation
import Mathlib.Data.List.Perm.Basic

/-!
# Specification: linear interpolation between grid points
-/

set_option autoImplicit false

namespace Postpic.Spec

variable {K : Type} [Field K] [LinearOrder K]
variable {V : Type} [AddCommGroup V] [Module K V]

/-- `v` is the value at `p` of the polygon through the points `(x_i, y_i)`, which is continued by constants. -/
def OnPolygon (x : List K) (y : ℕ → V) (p : K) (v : V) : Prop :=
  (∃ a, x[0]? = some a ∧ p ≤ a ∧ v = y 0) ∨
  (∃ b, x[x.length - 1]? = some b ∧ b ≤ p ∧ v = y (x.length - 1)) ∨
  ∃ (i : ℕ) (a b : K), x[i]? = some a ∧ x[i + 1]? = some b ∧ a ≤ p ∧ p ≤ b ∧ a ≠ b ∧
    v = y i + ((p - a) / (b - a)) • (y (i + 1) - y i)

/-- `v` is the multilinear interpolation, at the point with the coordinates `p`, of the data `g` on a grid: along each
dimension the values at the grid points are joined by a polygon. -/
def Multilinear : List (List K) → (List ℕ → V) → List K → V → Prop
  | [], g, [], v => v = g []
  | x :: xs, g, p :: ps, v => ∃ y : ℕ → V,
      (∀ i < x.length, Multilinear xs (fun idx => g (i :: idx)) ps (y i)) ∧ OnPolygon x y p v
  | _, _, _, _ => False

/-- `p` are the coordinates of the grid point with this index. -/
def PointAt : List (List K) → List ℕ → List K → Prop
  | [], [], [] => True
  | x :: xs, i :: idx, p :: ps => x[i]? = some p ∧ PointAt xs idx ps
  | _, _, _ => False

/-- A function of the position which is affine in each coordinate, like `a + b x + c y + d x y`. -/
def AffineEach (F : List K → V) : Prop :=
  ∀ (before after : List K) (a b t : K), F (before ++ (a + t * (b - a)) :: after) =
    F (before ++ a :: after) + t • (F (before ++ b :: after) - F (before ++ a :: after))

/-- The coordinates lie between the first and the last grid point of each dimension. -/
def WithinGrid : List (List K) → List K → Prop
  | [], [] => True
  | x :: xs, p :: ps => (∃ a b, x[0]? = some a ∧ x[x.length - 1]? = some b ∧ a ≤ p ∧ p ≤ b) ∧ WithinGrid xs ps
  | _, _ => False

/-- `m` is the median of the numbers: with the numbers sorted, the one in the middle or the mean of the two in the
middle. -/
def IsMedian (l : List K) (m : K) : Prop :=
  ∃ s : List K, s.Perm l ∧ s.Pairwise (· ≤ ·) ∧
    ((∃ k, l.length = 2 * k + 1 ∧ s[k]? = some m) ∨
      ∃ k a b, l.length = 2 * k + 2 ∧ s[k]? = some a ∧ s[k + 1]? = some b ∧ m = (a + b) / 2)

end Postpic.Spec
