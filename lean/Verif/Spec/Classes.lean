import Verif.Model.Classes

/-!
# Specification: readers can be created and extended
-/

set_option autoImplicit false

namespace Postpic.Spec

open Postpic.Classes

/-- Looking up a method: the first class of the list which has it says whether it is abstract. -/
def methodKind : List PyClass → String → Option Bool
  | [], _ => none
  | c :: bases, m => if m ∈ c.abstract then some true else if m ∈ c.methods then some false else methodKind bases m

/-- A class as users write them to extend a reader: it adds or replaces methods, and its `__init__`, if any, may take some keywords and passes all
others on to its base class with `super(ThisClass, self).__init__(..., **kwargs)` (`super().__init__` in short). -/
structure Extension (u : PyClass) : Prop where
  methods : u.abstract = []
  init : ∀ i, u.init = some i → i.kwargs = true ∧ i.super = some (.named u.name)

/-- The keywords which are left for the base classes. -/
def leftKeywords (us : List PyClass) (kw : List String) : List String :=
  us.foldl (fun kw u => match u.init with
    | some i => kw.filter fun k => decide (k ∉ i.params)
    | none => kw) kw

/-- The classes which have a method `__init__`. -/
def withInit (us : List PyClass) : List String := (us.filter fun u => u.init.isSome).map (·.name)

end Postpic.Spec
