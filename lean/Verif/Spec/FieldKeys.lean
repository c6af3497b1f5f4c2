import Verif.Model.FieldKeys

/-!
# Specification of how fields and species are found
-/

set_option autoImplicit false

namespace Postpic.Spec

open Postpic Postpic.Fields Postpic.Readers

/-- The names a user may give for a component, and the component. -/
def componentTable : List (AxisKey × String) :=
  [(.str "x", "x"), (.str "X", "x"), (.int 0, "x"), (.str "y", "y"), (.str "Y", "y"), (.int 1, "y"), (.str "z", "z"), (.str "Z", "z"),
    (.int 2, "z"), (.str "r", "r"), (.str "R", "r"), (.int 90, "r"), (.str "theta", "t"), (.str "t", "t"), (.int 91, "t")]

/-- The path of a component in an openPMD file. -/
def pmdPath (f : EB) (c : String) : String := "fields/" ++ (if f = .E then "E" else "B") ++ "/" ++ c

/-- The path of a component in a file of EPOCH. -/
def epochPath (f : EB) (c : String) (average : Bool) : String :=
  (if f = .E then "Electric Field/E" else "Magnetic Field/B") ++ c ++ (if average then "_averaged" else "")

/-- The path of a component in a file of Smilei. -/
def smileiPath (f : EB) (c : String) : String := (if f = .E then "E" else "B") ++ c

/-- The samples `a` in SI units: each one is multiplied by the unit. -/
def InSI {K : Type} [Mul K] (raw : Arr K) (unitSI : K) (a : Arr K) : Prop :=
  a.shape = raw.shape ∧ ∀ i, a.at' i = raw.at' i * unitSI

/-- A name of a species: word characters and dashes, possibly below the name of a subset. -/
def ProperName (word : Char → Bool) (s : List Char) : Prop :=
  ∃ a : List Char, a ≠ [] ∧ (∀ c ∈ a, word c = true ∨ c = '-') ∧
    (s = a ∨ ∃ b : List Char, b ≠ [] ∧ (∀ c ∈ b, word c = true ∨ c = '-') ∧ s = a ++ '/' :: b)

/-- The key of a property of the particles of a species. -/
def ParticleKey (word : Char → Bool) (species key : List Char) : Prop :=
  ∃ attrib : List Char, attrib ≠ [] ∧ (∀ c ∈ attrib, word c = true) ∧ key = "Particles/".toList ++ (attrib ++ '/' :: species)

/-- A key of a derived quantity made of word characters, slashes and blanks. -/
def PlainDerived (word : Char → Bool) (key : List Char) : Prop :=
  ∃ r : List Char, key = "Derived/".toList ++ r ∧ ∀ c ∈ r, word c = true ∨ c = '/' ∨ c = ' '

/-- A name below `fields` which is the record `E` or `B`, or one of its components. -/
def IsEB (name : List Char) : Prop :=
  name = "E".toList ∨ name = "B".toList ∨ "E/".toList <+: name ∨ "B/".toList <+: name

end Postpic.Spec
