import Verif.Model.EpochOld
import Verif.Spec.KspaceExtent

/-!
# Specification: the grid on which the old method reconstructs a component
-/

set_option autoImplicit false

namespace Postpic.Spec

open Postpic Postpic.Axes Postpic.Fields

noncomputable section

/-- The letter of a field. -/
def fieldLetter (electric : Bool) : String := if electric then "E" else "B"

/-- The grid of a component is moved by half a cell along all other axes: forward for `E`, backward for `B`. -/
def movedOrigin (electric : Bool) (p : Fin 3) (x0 h : ℕ → ℝ) (d : ℕ) : ℝ :=
  if d = p.val then x0 d else if electric then x0 d + h d / 2 else x0 d - h d / 2

end

end Postpic.Spec
