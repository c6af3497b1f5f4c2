import Verif.Model.Dummy

/-!
# Specification: the data of the dummy reader
-/

set_option autoImplicit false

namespace Postpic.Spec

open Postpic Postpic.Readers

/-- A seed numpy accepts, or none. -/
def GoodSeed : Option ℤ → Prop
  | none => True
  | some k => 0 ≤ k ∧ k < 2 ^ 32

/-- A function for random numbers uses nothing but the generator of numpy. -/
def UsesShared {S T : Type} (rf : RandFunc S T) : Prop :=
  ∀ (n : ℕ) (a : S) (t t' : T), (rf n (a, t)).1 = (rf n (a, t')).1 ∧ (rf n (a, t)).2.1 = (rf n (a, t')).2.1

/-- A function gives as many numbers as it is asked for. -/
def GivesAll {S T : Type} (rf : RandFunc S T) : Prop := ∀ (n : ℕ) (s : S × T), (rf n s).1.length = n

/-- Shuffling only changes the order. -/
def OnlyOrder {S : Type} (rng : Rng S) : Prop := ∀ (l : List ℕ) (s : S), (rng.shuffle l s).1.Perm l

/-- What the particles of a simulation with `dims` dimensions have. -/
def dummyAttribs (dims : ℤ) : List String :=
  ["x", "px", "py", "pz", "weight", "id"] ++ (if 2 ≤ dims then ["y"] else []) ++ (if 3 ≤ dims then ["z"] else [])

/-- The values of the three fields of dump `n` at a point: a standing wave around the origin, a sum of plane waves, and the square of the
distance from the origin. -/
noncomputable def dummyValue (n x y z : ℝ) : Fin 3 → ℝ
  | 0 => Real.sin (n * Real.pi * Real.sqrt (x * x + y * y + z * z)) / Real.sqrt (x * x + y * y + z * z + 1 / 1000000000)
  | 1 => Real.sin (n * Real.pi * x) + Real.sin ((n - 1) * Real.pi * y) + Real.sin ((n - 2) * Real.pi * z)
  | 2 => x * x + y * y + z * z

end Postpic.Spec
