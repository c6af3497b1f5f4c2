import Mathlib.Algebra.Order.Field.Basic
import Mathlib.Algebra.BigOperators.Group.List.Basic

/-!
# Specification of weighted quantiles
-/

set_option autoImplicit false

namespace Postpic.Spec

variable {K : Type} [Field K] [LinearOrder K]

/-- Total weight of the particles with a value satisfying `p`. -/
def weightOf (data w : List K) (p : K → Bool) : K :=
  (((data.zip w).filter fun a => p a.1).map (·.2)).sum

/-- `idx` sorts `data`: it lists all positions once, the values in this order ascend. -/
def IsArgsort (data : List K) (idx : List ℕ) : Prop :=
  idx.Perm (List.range data.length) ∧
  idx.Pairwise fun i j => ∀ a b, data[i]? = some a → data[j]? = some b → a ≤ b

/-- `x` is the smallest value such that at least the fraction `q` of the weight is at most `x`. -/
def IsQuantile (data w : List K) (q x : K) : Prop :=
  x ∈ data ∧ q * w.sum ≤ weightOf data w (fun y => decide (y ≤ x)) ∧
  ∀ y ∈ data, y < x → weightOf data w (fun z => decide (z ≤ y)) < q * w.sum

end Postpic.Spec
