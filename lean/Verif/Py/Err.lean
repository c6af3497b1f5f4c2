/-!
# Exceptions as values

Python exceptions that the modelled code can raise. `undefinedBehaviour` stands for an access
outside of an array in Cython code compiled with `boundscheck(False)`, where the real program
reads or corrupts foreign memory instead of raising.
-/

set_option autoImplicit false

namespace Postpic

/-- The exceptions occurring in the model (python class names). -/
inductive Err where
  | valueError
  | typeError
  | indexError
  | keyError
  | nameError
  | attributeError
  | zeroDivisionError
  | assertionError
  | genericException
  | recursionError
  | importError
  | ioError
  | notImplementedError
  | runtimeError
  | undefinedBehaviour
  deriving DecidableEq, Repr

/-- Result of a python call: a value or an exception. -/
abbrev Res (α : Type _) := Except Err α

instance {α : Type _} [DecidableEq α] : DecidableEq (Except Err α)
  | .ok a, .ok b => if h : a = b then isTrue (by rw [h]) else isFalse (by intro h'; injection h'; contradiction)
  | .error a, .error b =>
    if h : a = b then isTrue (by rw [h]) else isFalse (by intro h'; injection h'; contradiction)
  | .ok _, .error _ => isFalse (by intro h; cases h)
  | .error _, .ok _ => isFalse (by intro h; cases h)

end Postpic
