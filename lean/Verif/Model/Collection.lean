import Verif.Model.Particles

/-!
# Model of the bookkeeping of collections

`MultiSpecies` with the names of its species and the logs of its selections, `postpic/particles/particles.py:337-620`, and the
parts of `_SingleSpecies` which belong to it.

Simplifications as in `Model/Particles.lean`. The trivial name of a collection and the strings made from it are left out.
-/

set_option autoImplicit false

namespace Postpic.Particles

open Postpic

variable {V : Type}

/-- `_SingleSpecies` with its name and `compresslog`. `particles.py:78-88`. -/
structure Part (V : Type) where
  species : String
  ss : SS V
  log : List String

/-- `MultiSpecies` with `_ssas` and `_compresslog`. `particles.py:351-358`. -/
structure Coll (V : Type) where
  parts : List (Part V)
  log : List String

/-- `MultiSpecies(dumpreader, species)` for a species which exists. `particles.py:351-358`, `:78-97`. -/
def Coll.ofSpecies (species : String) (d : Dump V) : Coll V := ⟨[⟨species, fresh d, []⟩], []⟩

/-- `_SingleSpecies.initial_npart()`; `len` of the zero dimensional array is a TypeError. `particles.py:284-291`. -/
def Part.initialNpart (p : Part V) : Res ℕ :=
  match p.ss.mask with
  | .none => (len p.ss).1
  | .zero => .error .typeError
  | .bools b => .ok b.length

/-- `initial_npart`. `particles.py:427-435`. -/
def Coll.initialNpart (c : Coll V) : Res ℕ := do
  let ns ← c.parts.mapM Part.initialNpart
  return ns.sum

/-- `nspecies`. `particles.py:437-442`. -/
def Coll.nspecies (c : Coll V) : ℕ := c.parts.length

/-- `npart` / `__len__`. `particles.py:417-425`, `:444-445`. -/
def Coll.len (c : Coll V) : Res ℕ := msLen (c.parts.map Part.ss)

/-- `__call__` for an atomic property. `particles.py:661-674`. -/
def Coll.read (c : Coll V) (k : Key) : Res (Arr V) := msRead (c.parts.map Part.ss) k

/-- The collection after a property has been read: the caches of its species have changed. -/
def Coll.afterRead (c : Coll V) (k : Key) : Coll V :=
  { c with parts := c.parts.map fun p => { p with ss := (ssdata p.ss k).2 } }

/-- `_SingleSpecies.compress` with booleans. `particles.py:205-217`. -/
def Part.compress (p : Part V) (condition : List Bool) (name : String) : Res (Part V) := do
  let t ← (compressBool p.ss condition).1
  return ⟨p.species, t, p.log ++ [name]⟩

/-- `_SingleSpecies.compress` with ids. `particles.py:205-217`. -/
def Part.select (toInt : V → Int) (p : Part V) (ids : List Int) (name : String) : Res (Part V) := do
  let t ← (compressInt toInt p.ss ids).1
  return ⟨p.species, t, p.log ++ [name]⟩

/-- `_SingleSpecies.__invert__`. `particles.py:252-264`. -/
def Part.invert (p : Part V) : Part V := ⟨p.species, Particles.invert p.ss, p.log ++ ["inverted"]⟩

/-- `_SingleSpecies.uncompress`. `particles.py:246-250`. -/
def Part.uncompress (p : Part V) : Part V := ⟨p.species, Particles.uncompress p.ss, []⟩

/-- The variables of an expression are loaded one after the other. `particles.py:304-320`. -/
def readAll (s : SS V) : List Key → Res (List (Arr V)) × SS V
  | [] => (.ok [], s)
  | k :: ks => match readAtomic s k with
    | (.error e, s') => (.error e, s')
    | (.ok a, s') => match readAll s' ks with
      | (.error e, s'') => (.error e, s'')
      | (.ok as, s'') => (.ok (a :: as), s'')

/-- A boolean array of shape `()` or `(n,)`. -/
inductive Cond where
  | scalar (b : Bool)
  | bools (l : List Bool)

/-- The value of an array for the particle `i`. -/
def Arr.valueAt (i : ℕ) : Arr V → Option V
  | .scalar v => some v
  | .array l => l[i]?
  | .empty2 _ => none

/-- The lengths of the arrays of shape `(n,)`. -/
def lengths : List (Arr V) → List ℕ
  | [] => []
  | .array l :: as => l.length :: lengths as
  | _ :: as => lengths as

/-- `sp.evaluate(_vars)` for an elementwise expression `p` of boolean values: numbers are broadcast. Arrays of the shape `(0, n)`
give a condition of that shape, which cannot be assigned to the selection: ValueError. `particles.py:321`, `:219-228`. -/
def evaluate (p : List V → Bool) (as : List (Arr V)) : Res Cond :=
  if as.any fun a => match a with | .empty2 _ => true | _ => false then .error .valueError
  else match lengths as with
    | [] => .ok (.scalar ((as.mapM (Arr.valueAt 0)).any p))
    | n :: ns =>
      if ns.all (· = n) then .ok (.bools ((List.range n).map fun i => (as.mapM (Arr.valueAt i)).any p))
      else .error .valueError

/-- `_SingleSpecies.filter(condition, name)`. `len` of a zero dimensional array is a TypeError. `particles.py:157-172`. -/
def Part.filter (p : Part V) (ks : List Key) (f : List V → Bool) (name : String) : Res (Part V) :=
  match readAll p.ss ks with
  | (.error e, _) => .error e
  | (.ok as, s') => do
    match ← evaluate f as with
    | .scalar _ => .error .typeError
    | .bools c => Part.compress { p with ss := s' } c name

/-- The loop of `MultiSpecies.compress` for booleans. `particles.py:575-579`. -/
def compressParts (condition : List Bool) (name : String) : ℕ → List (Part V) → Res (List (Part V))
  | _, [] => .ok []
  | i, p :: rest => do
    let n ← (Particles.len p.ss).1
    let p' ← Part.compress { p with ss := (Particles.len p.ss).2 } ((condition.drop i).take n) name
    let rest' ← compressParts condition name (i + n) rest
    return p' :: rest'

/-- `compress` with booleans. `particles.py:570-583`. -/
def Coll.compress (c : Coll V) (condition : List Bool) (name : String) : Res (Coll V) := do
  let parts ← compressParts condition name 0 c.parts
  return ⟨parts, c.log ++ [name]⟩

/-- `compress` with ids. `particles.py:570-583`. -/
def Coll.select (toInt : V → Int) (c : Coll V) (ids : List Int) (name : String) : Res (Coll V) := do
  let parts ← c.parts.mapM fun p => p.select toInt ids name
  return ⟨parts, c.log ++ [name]⟩

/-- `filter(condition, name)`. The own log gets `shown = str(condition)`, those of the species get the name, or the name of the
condition or its expression. `particles.py:559-568`, `:168-172`. -/
def Coll.filter (c : Coll V) (ks : List Key) (f : List V → Bool) (shown : String) (name : Option String) : Res (Coll V) := do
  let parts ← c.parts.mapM fun p => p.filter ks f (name.getD shown)
  return ⟨parts, c.log ++ [shown]⟩

/-- `__invert__`. `particles.py:585-592`. -/
def Coll.invert (c : Coll V) : Coll V := ⟨c.parts.map Part.invert, c.log ++ ["inverted"]⟩

/-- `uncompress`. `particles.py:606-614`. -/
def Coll.uncompress (c : Coll V) : Coll V := ⟨c.parts.map Part.uncompress, []⟩

/-- `__add__`: the log of the second collection is dropped. `particles.py:520-556`. -/
def Coll.add (c d : Coll V) : Coll V := ⟨c.parts ++ d.parts, c.log⟩

/-- `getcompresslog()`: a dictionary, in which a later entry replaces an earlier one with the same key. `particles.py:616-620`. -/
def Coll.getcompresslog (c : Coll V) : String → Option (List String) :=
  c.parts.foldl (fun dict p key => if key = p.species then some p.log else dict key) fun key => if key = "all" then some c.log else none

end Postpic.Particles
