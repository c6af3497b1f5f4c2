import Mathlib.Algebra.BigOperators.Group.Finset.Basic
import Mathlib.Algebra.Module.Defs
import Mathlib.Algebra.Field.Defs
import Mathlib.Data.Nat.Notation

/-!
# Specification: parabolas, their slopes and integrals
-/

set_option autoImplicit false

namespace Postpic.Spec

section
variable {K V : Type} [Field K] [AddCommGroup V] [Module K V]

/-- The parabola `p + q x + r x²`. -/
structure Parabola (V : Type) where
  p : V
  q : V
  r : V

/-- The value at `x`. -/
def Parabola.value (c : Parabola V) (x : K) : V := c.p + x • c.q + (x ^ 2) • c.r

/-- The derivative at `x`. -/
def Parabola.slope (c : Parabola V) (x : K) : V := c.q + (2 * x) • c.r

/-- The integral from `a` to `b`. -/
def Parabola.integral (c : Parabola V) (a b : K) : V :=
  (b - a) • c.p + ((b ^ 2 - a ^ 2) / 2) • c.q + ((b ^ 3 - a ^ 3) / 3) • c.r

/-- The integral is made for the slope: the integral of the derivative is the difference of the
values (a check of these definitions). -/
def Parabola.derivative (c : Parabola V) : Parabola V := ⟨c.q, (2 : K) • c.r, 0⟩

/-- The parabola passes through the points with these numbers. -/
def Parabola.Through (c : Parabola V) (x : List K) (y : List V) (l : List ℕ) : Prop :=
  ∀ i ∈ l, y[i]? = (x[i]?).map c.value

/-- Applying a rule for lines of data to the flagged dimensions; `xs` are the positions along each
dimension, `idx` gives the position in the other dimensions. -/
def iterated (rule : List K → List V → V) :
    List (List K) → List Bool → (List ℕ → V) → List ℕ → V
  | x :: xs, true :: sel, g, idx =>
    rule x ((List.range x.length).map fun i => iterated rule xs sel (fun j => g (i :: j)) idx)
  | _ :: xs, false :: sel, g, i :: idx => iterated rule xs sel (fun j => g (i :: j)) idx
  | _, _, g, _ => g []

end

end Postpic.Spec
