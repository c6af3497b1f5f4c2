import Mathlib.Algebra.BigOperators.Group.Finset.Basic
import Verif.Spec.Kernel

/-!
# Specification: changes of units and merged bins
-/

set_option autoImplicit false

namespace Postpic.Spec

variable {K : Type*} [Field K] [LinearOrder K]

/-- A change of the units and of the origin of a coordinate. -/
def inUnits (a b x : K) : K := a * x + b

/-- A range in other units. -/
def rangeInUnits (a b : K) (r : K × K) : K × K := (inUnits a b r.1, inUnits a b r.2)

/-- The array with `n` entries, each of them the sum of `k` neighbours. -/
def merged1 (k n : ℕ) (h : List K) : List K := grid1 n fun i => ∑ a ∈ Finset.range k, h.getD (k * i + a) 0

/-- The same for two dimensions. -/
def merged2 (k l nx ny : ℕ) (h : List (List K)) : List (List K) :=
  grid2 nx ny fun i j => ∑ a ∈ Finset.range k, ∑ b ∈ Finset.range l, (h.getD (k * i + a) []).getD (l * j + b) 0

/-- The same for three dimensions. -/
def merged3 (k l m nx ny nz : ℕ) (h : List (List (List K))) : List (List (List K)) :=
  grid3 nx ny nz fun i j t => ∑ a ∈ Finset.range k, ∑ b ∈ Finset.range l, ∑ c ∈ Finset.range m,
    ((h.getD (k * i + a) []).getD (l * j + b) []).getD (m * t + c) 0

/-- Every `k`-th entry. -/
def everyNth (k n : ℕ) (e : List K) : List K := (List.range (n + 1)).map fun i => e.getD (k * i) 0

end Postpic.Spec
