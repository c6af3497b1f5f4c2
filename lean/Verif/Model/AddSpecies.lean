import Verif.Model.Collection
import Verif.Model.Species

/-!
# Model of creating collections

`MultiSpecies.__init__` and `MultiSpecies.add`, `postpic/particles/particles.py:351-358`, `:477-516`, and the check of
`_SingleSpecies.__init__`, `:78-82`.

Simplifications as in `Model/Collection.lean`. `listSpecies()` gives the same names whenever it is called. Python allows a certain depth of
calls; it is the argument `depth`.
-/

set_option autoImplicit false

namespace Postpic.Particles

open Postpic Postpic.Species

variable {V : Type}

/-- A dumpreader: `listSpecies()` and the data of the species. -/
structure SpeciesDump (V : Type) where
  names : List String
  data : String → Dump V

/-- `_SingleSpecies(dumpreader, species)`. `particles.py:78-97`. -/
def single (d : SpeciesDump V) (species : String) : Res (Part V) :=
  if species ∈ d.names then .ok ⟨species, fresh (d.data species), []⟩ else .error .keyError

/-- `keys`; `none` if `species` is not a key. `particles.py:498-502`. -/
def keyOf (cl : Classes) (species : String) : Option (String → Res Bool) :=
  if species = "_ions" then some fun s => flag cl s "ision"
  else if species = "_nonions" then some fun s => do return !(← flag cl s "ision")
  else if species = "_ejected" then some fun s => flag cl s "ejected"
  else if species = "_noejected" then some fun s => do return !(← flag cl s "ejected")
  else if species = "_all" then some fun _ => return true
  else none

/-- `for s in toadd: …`: the result and the list of species afterwards. `particles.py:506-507`, `:357-358`. -/
def addEach (add : String → List (Part V) → Res Unit × List (Part V)) : List String → List (Part V) → Res Unit × List (Part V)
  | [], l => (.ok (), l)
  | s :: rest, l => match add s l with
    | (.ok _, l') => addEach add rest l'
    | (.error e, l') => (.error e, l')

/-- `add(dumpreader, species, ignore_missing_species)`: the result and `_ssas` afterwards. `particles.py:477-516`. -/
def addSpecies (cl : Classes) (d : SpeciesDump V) (depth : ℕ) (ignore : Bool) (species : String) (l : List (Part V)) :
    Res Unit × List (Part V) :=
  match depth with
  | 0 => (.error .recursionError, l)
  | depth + 1 => match keyOf cl species with
    | some key => match d.names.filterM key with
      | .error e => (.error e, l)
      | .ok toadd => addEach (addSpecies cl d depth false) toadd l
    | none => match single d species with
      | .ok p => (.ok (), l ++ [p])
      | .error e => if ignore ∧ e = .keyError then (.ok (), l) else (.error e, l)

/-- `MultiSpecies(dumpreader, *speciess, ignore_missing_species)`. `particles.py:351-358`. -/
def newColl (cl : Classes) (d : SpeciesDump V) (depth : ℕ) (ignore : Bool) (speciess : List String) : Res (Coll V) :=
  match addEach (addSpecies cl d depth ignore) speciess [] with
  | (.ok _, l) => .ok ⟨l, []⟩
  | (.error e, _) => .error e

/-- `speciess`. `particles.py:470-475`. -/
def Coll.speciess (c : Coll V) : List String := c.parts.map Part.species

end Postpic.Particles
