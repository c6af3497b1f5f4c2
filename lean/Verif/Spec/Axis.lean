import Mathlib.Algebra.Field.Defs
import Mathlib.Order.Basic
import Mathlib.Data.Nat.Cast.Defs
import Mathlib.Data.Nat.Notation

/-!
# Specification of well formed axes
-/

set_option autoImplicit false

namespace Postpic.Spec

section
variable {K : Type} [LinearOrder K]

/-- There is one more node than grid points, and every grid point lies strictly between its two
nodes; nodes and grid ascend, or both descend. -/
def WellFormedAxis (nodes grid : List K) : Prop :=
  nodes.length = grid.length + 1 ∧
  ((∀ (i : ℕ) (a g b : K), nodes[i]? = some a → grid[i]? = some g → nodes[i + 1]? = some b →
      a < g ∧ g < b) ∨
   (∀ (i : ℕ) (a g b : K), nodes[i]? = some a → grid[i]? = some g → nodes[i + 1]? = some b →
      a > g ∧ g > b))

/-- An axis as the user sees it: well formed, and the extent is given by the outer nodes. -/
structure ValidAxis (nodes grid : List K) (extent : K × K) : Prop where
  wf : WellFormedAxis nodes grid
  first : nodes.head? = some extent.1
  last : nodes.getLast? = some extent.2

end

/-- The grid points are the centers of `n` cells of equal size between `e0` and `e1`. -/
def UniformGrid {K : Type} [Field K] (e0 e1 : K) (grid : List K) : Prop :=
  ∀ (i : ℕ) (g : K), grid[i]? = some g →
    g = e0 + ((i : K) + 1 / 2) * ((e1 - e0) / (grid.length : K))

/-- The part `sub` of `l` starting at position `k`. -/
def IsPart {α : Type} (l : List α) (k : ℕ) (sub : List α) : Prop :=
  ∀ (i : ℕ), i < sub.length → sub[i]? = l[k + i]?

end Postpic.Spec
