import Verif.Model.PropagateHistory

/-! Programs which use the results of `kspace_propagate` while they are computed. -/

set_option autoImplicit false

namespace Postpic.Spec

open Postpic.Fields

/-- A program which leaves alone what the computation depends on. Before it asks for the first result it does not change the
field and the direction it has given. After that it may change everything if the field has been given in the spatial domain;
otherwise only fields which are neither the given one nor one of the results (these are numbered from `old`). -/
def Undisturbed (spatial : Bool) (field old : ℕ) : Bool → List Act → Prop
  | _, [] => True
  | _, .next :: l => Undisturbed spatial field old true l
  | false, .write a _ :: l => a ≠ field ∧ Undisturbed spatial field old false l
  | true, .write a _ :: l => (spatial = true ∨ a ≠ field ∧ a < old) ∧ Undisturbed spatial field old true l
  | false, .turn _ :: _ => False
  | true, .turn _ :: l => Undisturbed spatial field old true l

/-- How often a program asks for a result. -/
def asked : List Act → ℕ
  | [] => 0
  | .next :: l => asked l + 1
  | .write _ _ :: l => asked l
  | .turn _ :: l => asked l

/-- What a program should get which asks `n` times for a result out of the list `l`. -/
def expected {α : Type} (n : ℕ) (l : List α) : List (Option α) := (List.range n).map (l[·]?)

end Postpic.Spec
