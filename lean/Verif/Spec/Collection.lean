import Verif.Model.Collection
import Verif.Spec.Selection

/-!
# Specification of collections of species

A collection is a list of species, each with the positions of the selected particles in the dump. Only the types of the model and
`fetch` are used.
-/

set_option autoImplicit false

namespace Postpic.Spec

open Postpic Postpic.Particles

variable {V : Type}

/-- How a collection was made. Every operation returns a new collection, so that all collections which ever exist are values of
such expressions. `afterRead` is the collection after one of its properties has been read. -/
inductive History (V : Type) where
  | species (name : String) (d : Dump V) (N : ℕ)
  | add (p q : History V)
  | afterRead (h : History V) (k : Key)
  | compress (h : History V) (condition : List Bool) (name : String)
  | select (h : History V) (ids : List Int) (name : String)
  | filter (h : History V) (ks : List Key) (f : List V → Bool) (shown : String) (name : Option String)
  | invert (h : History V)
  | uncompress (h : History V)

/-- A species of a collection: what was dumped, which particles are selected, whether the selection was ever restricted, and the
names of the selections. -/
structure SpecPart (V : Type) where
  name : String
  dump : Dump V
  N : ℕ
  sel : List ℕ
  restricted : Bool
  log : List String

/-- A collection, and the names of the selections applied to all of it. -/
structure SpecColl (V : Type) where
  parts : List (SpecPart V)
  log : List String

/-- The number of particles. -/
def SpecColl.count (c : SpecColl V) : ℕ := (c.parts.map fun p => p.sel.length).sum

/-- Keep the particles for which the list of booleans has `true`, one species after the other. -/
def keep (name : String) : List (SpecPart V) → List Bool → List (SpecPart V)
  | [], _ => []
  | p :: rest, c =>
    { p with
      sel := ((p.sel.zip (c.take p.sel.length)).filter fun ic => ic.2).map Prod.fst
      restricted := true
      log := p.log ++ [name] } :: keep name rest (c.drop p.sel.length)

/-- The collection which a history should lead to. -/
def specColl (toInt : V → Int) : History V → SpecColl V
  | .species name d N => ⟨[⟨name, d, N, List.range N, false, []⟩], []⟩
  | .add p q => ⟨(specColl toInt p).parts ++ (specColl toInt q).parts, (specColl toInt p).log⟩
  | .afterRead h _ => specColl toInt h
  | .compress h c name => ⟨keep name (specColl toInt h).parts c, (specColl toInt h).log ++ [name]⟩
  | .select h ids name =>
    ⟨(specColl toInt h).parts.map fun p => { p with
        sel := p.sel.filter fun i => ((dataAt p.dump .id i).map toInt).any (· ∈ ids)
        restricted := true
        log := p.log ++ [name] },
      (specColl toInt h).log ++ [name]⟩
  | .filter h ks f shown name =>
    ⟨(specColl toInt h).parts.map fun p => { p with
        sel := p.sel.filter fun i => (ks.mapM fun k => dataAt p.dump k i).any f
        restricted := true
        log := p.log ++ [name.getD shown] },
      (specColl toInt h).log ++ [shown]⟩
  | .invert h =>
    ⟨(specColl toInt h).parts.map fun p => { p with
        sel := (List.range p.N).filter fun i => i ∉ p.sel
        log := p.log ++ ["inverted"] },
      (specColl toInt h).log ++ ["inverted"]⟩
  | .uncompress h =>
    ⟨(specColl toInt h).parts.map fun p => { p with sel := List.range p.N, restricted := false, log := [] }, []⟩

/-- Histories for which the code does what it should: the dumps are consistent; conditions have one entry for each particle; lists of
ids are not empty, and all species have ids; all properties of a filter are dumped, at least one of them with one value for each
particle; only restricted selections are inverted. -/
def Usable (toInt : V → Int) : History V → Prop
  | .species _ d N => WellFormed d N
  | .add p q => Usable toInt p ∧ Usable toInt q
  | .afterRead h _ => Usable toInt h
  | .compress h c _ => Usable toInt h ∧ c.length = (specColl toInt h).count
  | .select h ids _ => Usable toInt h ∧ ids ≠ [] ∧ ∀ p ∈ (specColl toInt h).parts, ∃ l, fetch p.dump .id = .ok (.array l)
  | .filter h ks _ _ _ => Usable toInt h ∧ ∀ p ∈ (specColl toInt h).parts,
      (∀ k ∈ ks, ∃ e, fetch p.dump k = .ok e) ∧ ∃ k ∈ ks, ∃ l, fetch p.dump k = .ok (.array l)
  | .invert h => Usable toInt h ∧ ∀ p ∈ (specColl toInt h).parts, p.restricted = true
  | .uncompress h => Usable toInt h

/-- The values of a property for all particles, in order. -/
def SpecColl.values (c : SpecColl V) (k : Key) : List (Option V) :=
  (c.parts.map fun p => p.sel.map (dataAt p.dump k)).flatten

end Postpic.Spec
