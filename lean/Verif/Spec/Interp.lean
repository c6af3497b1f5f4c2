import Verif.Model.Interp

/-!
# Specification: interpolation
-/

set_option autoImplicit false

namespace Postpic.Interp

open Postpic

section
variable {K : Type} [_root_.Field K] [LinearOrder K]

/-- The coordinate is inside of an axis with `n` points. -/
def Inside (n : ℕ) (c : K) : Prop := 0 ≤ c ∧ c ≤ n - 1

/-- The coordinates of an output point: one number for each of the `d` dimensions of the input. -/
def coordsAt (d : ℕ) (coordinates : Arr K) (idx : List ℕ) : List K :=
  (List.range d).map fun a => coordinates.at' (a :: idx)

end

end Postpic.Interp
