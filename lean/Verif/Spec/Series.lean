import Verif.Model.Series

/-!
# Specification of series of files and of the identity of dumps
-/

set_option autoImplicit false

namespace Postpic.Spec

open Postpic Postpic.Readers

/-- `name` consists of `pre`, then `w` digits which read as the decimal number `n`, then `post`: `data00000120.h5`. -/
def Numbered (pre post : List Char) (w n : ℕ) (name : List Char) : Prop :=
  ∃ ds : List Char, name = pre ++ (ds ++ post) ∧ ds.length = w ∧ (∀ c ∈ ds, c.isDigit = true) ∧ Nat.ofDigitChars 10 ds 0 = n

/-- The datasets of iteration `name` among the given ones. -/
def InIteration {D : Type} (h : H5 D) (name key : List Char) (value : D) : Prop := (⟨name, key, value⟩ : Entry D) ∈ h

/-- Where a dump is: in a file, or else what its identifier says. -/
inductive Location where
  | file (n : ℕ)
  | other (i : Ident)

/-- The location of a dump: the file if its identifier is the path of one. -/
def locationOf (fs : Paths) (d : Dump) : Location :=
  match fs d.ident.toStr with
  | some n => .file n
  | none => .other d.ident

/-- Two readers represent the same dump: they read the same location, and there the same iteration with the same class of reader (for
dummy dumps: with the same parameters). -/
def SameDump (fs : Paths) (a b : Dump) : Prop := locationOf fs a = locationOf fs b ∧ a.kind = b.kind

/-- The identifier of one of the readers tells which iteration is shown, as there is only one at each location: readers of the same
location show the same iteration, and are of the same class. -/
def OnePerLocation (fs : Paths) (l : List Dump) : Prop :=
  ∀ a ∈ l, ∀ b ∈ l, (∃ c i, a.kind = .file c i) → locationOf fs a = locationOf fs b → a.kind = b.kind

/-- Dummy dumps and others are not mixed at the same location. -/
def NotMixed (fs : Paths) (l : List Dump) : Prop :=
  ∀ a ∈ l, ∀ b ∈ l, locationOf fs a = locationOf fs b → ((∃ c i, a.kind = .file c i) ↔ ∃ c i, b.kind = .file c i)

end Postpic.Spec
