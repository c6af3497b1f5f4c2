import Verif.Model.DumpSpecies

/-!
# Specification: particle data in files, per particle and in SI units

openPMD standard 1.1: the value in SI units is the stored value times `unitSI`, a constant component has the same value for all
particles, the position is the sum of the records `position` and `positionOffset`. Extension ED-PIC: if `macroWeighted` is set, the
stored value belongs to a whole macro-particle, that is, it contains the factor `w ^ weightingPower`.
-/

set_option autoImplicit false

namespace Postpic.Spec

open Postpic Postpic.Particles Postpic.Readers

variable {K : Type} [_root_.Field K] [LinearOrder K]

/-- The value stored for particle `i`. -/
def storedValue (c : Component K) (i : ℕ) : Option K :=
  match c.content with
  | .const v => some v
  | .array (.ints l) => (l[i]?).map fun n => (n : K)
  | .array (.floats l) => l[i]?

/-- The value of one particle in SI units: `w` is the weight of its macro-particle. -/
def siValue (c : Component K) (w : K) (i : ℕ) : Option K := do
  let v ← storedValue c i
  let u ← c.unitSI
  return v * u / (if c.macroWeighted then w ^ c.weightingPower else 1)

/-- The value of particle `i` in what a reader returns. -/
def entryAt (e : Entry K) (i : ℕ) : Option K :=
  match e with
  | .scalar v => some v
  | .array l => l[i]?

/-- A component describes `N` particles. -/
def Describes (c : Component K) (N : ℕ) : Prop :=
  match c.content with
  | .const _ => True
  | .array (.ints l) => l.length = N
  | .array (.floats l) => l.length = N

/-- All integers can be written with 53 binary digits. -/
def SmallIntegers (c : Component K) : Prop := ∀ l, c.content = .array (.ints l) → ∀ n ∈ l, n.natAbs < 2 ^ 53

/-- All particles have one value, or there is one for each of the `N` particles. -/
def HasLength (e : Entry K) (N : ℕ) : Prop :=
  match e with
  | .scalar _ => True
  | .array l => l.length = N

/-- The path of a property within the group of its species, as the standard says; Smilei calls the weights differently. -/
def standardPath (weights : String) : Key → Option String
  | .weight => some weights
  | .x => some "position/x" | .y => some "position/y" | .z => some "position/z"
  | .px => some "momentum/x" | .py => some "momentum/y" | .pz => some "momentum/z"
  | .mass => some "mass" | .charge => some "charge" | .id => some "id" | .time => none

/-- The path of the record which has to be added. -/
def offsetPath : Key → Option String
  | .x => some "positionOffset/x" | .y => some "positionOffset/y" | .z => some "positionOffset/z"
  | _ => none

end Postpic.Spec
