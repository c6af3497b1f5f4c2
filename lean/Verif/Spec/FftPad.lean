import Mathlib.Data.List.Basic
import Mathlib.Algebra.BigOperators.Group.List.Basic

/-!
# What the sizes for fast Fourier transforms should be
-/

set_option autoImplicit false

namespace Postpic.Spec

/-- "Sizes of the form 2^a 3^b 5^c 7^d 11^e 13^f, where e+f is either 0 or 1". -/
def GoodSize (m : ℕ) : Prop :=
  ∃ a b c d e f : ℕ, e + f ≤ 1 ∧ m = 2 ^ a * 3 ^ b * 5 ^ c * 7 ^ d * 11 ^ e * 13 ^ f

/-- The same for other `factors`: a product of powers of the factors, where 11 and 13 occur at most
once. -/
def GoodFor (factors : List ℕ) (m : ℕ) : Prop :=
  ∃ (x : ℕ) (ps : List ℕ), (x = 1 ∨ (x = 11 ∧ 11 ∈ factors) ∨ (x = 13 ∧ 13 ∈ factors)) ∧
    ps.length = ((factors.erase 11).erase 13).length ∧
    m = x * (List.zipWith (fun f p => f ^ p) ((factors.erase 11).erase 13) ps).prod

/-- The floating point `int(math.log(max/extra + 1, i))` is large enough: it is not smaller than any
exponent with `extra * i^p ≤ max`. (The exact logarithm exceeds such an exponent by more than
`1 / (i^p (p + 1))`, which is much larger than a rounding error as long as `i^p` is below `10^14`.) -/
def LogOk (lg : ℕ → ℕ → ℕ → ℕ) : Prop :=
  ∀ max e i p : ℕ, 2 ≤ i → 0 < e → e * i ^ p ≤ max → p ≤ lg max e i

end Postpic.Spec
