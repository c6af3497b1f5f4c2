import Verif.Model.AddSpecies

/-!
# Specification: the species of a collection
-/

set_option autoImplicit false

namespace Postpic.Spec

open Postpic Postpic.Particles Postpic.Species

/-- The names which stand for several species. -/
def speciesKeywords : List String := ["_ions", "_nonions", "_ejected", "_noejected", "_all"]

/-- The property a keyword asks for, and the answer it wants. -/
def keywordAsks : String → Option (String × Bool)
  | "_ions" => some ("ision", true)
  | "_nonions" => some ("ision", false)
  | "_ejected" => some ("ejected", true)
  | "_noejected" => some ("ejected", false)
  | _ => none

/-- What the keyword asks for is known for all species of the dump. -/
def KeywordKnown (cl : Classes) (names : List String) (arg : String) : Prop :=
  ∀ ask, keywordAsks arg = some ask → ∀ s ∈ names, ∃ v, flag cl s ask.1 = .ok v

/-- The species of a dump an argument stands for: the species with this name or the ones of the keyword, in the order of the dump. -/
def askedFor (cl : Classes) (names : List String) (arg : String) : List String :=
  if arg ∈ speciesKeywords then
    names.filter fun s => match keywordAsks arg with
      | some (key, v) => decide (flag cl s key = .ok v)
      | none => true
  else if arg ∈ names then [arg] else []

/-- A species with all its particles. -/
def whole {V : Type} (d : SpeciesDump V) (s : String) : Part V := ⟨s, fresh (d.data s), []⟩

end Postpic.Spec
