import Mathlib.Algebra.Order.Floor.Ring
import Mathlib.Algebra.Order.Field.Basic
import Verif.Model.Field

/-!
# Specification: positions on an axis and linear interpolation
-/

set_option autoImplicit false

namespace Postpic.Spec

open Postpic Postpic.Axes

variable {K : Type} [_root_.Field K] [LinearOrder K]

/-- `v` lies between `a` and `b` (in either order), `part` is the part of the way from `a` to `b`. -/
def OnTheWay (a b v part : K) : Prop := 0 ≤ part ∧ part ≤ 1 ∧ v = a + part * (b - a)

/-- Multilinear interpolation at a position given in units of the array index. -/
def multilinear [FloorRing K] : List K → (List ℕ → K) → K
  | [], g => g []
  | c :: cs, g =>
    (1 - Int.fract c) * multilinear cs (fun idx => g (⌊c⌋.toNat :: idx)) +
      Int.fract c * multilinear cs (fun idx => g ((⌊c⌋.toNat + 1) :: idx))

end Postpic.Spec
