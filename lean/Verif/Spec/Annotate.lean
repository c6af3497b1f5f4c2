import Verif.Model.Annotate

/-!
# Specification: texts which show numbers
-/

set_option autoImplicit false

namespace Postpic.Spec

open Postpic Postpic.Plot

/-- The text is the number `v` with one digit after the point. -/
def ReadsAs (l : List Char) (v : ℚ) : Prop :=
  ∃ (negative : Bool) (a : List Char) (b : Char), a ≠ [] ∧ (∀ ch ∈ a, ch.isDigit = true) ∧ b.isDigit = true ∧
    l = (if negative then ['-'] else []) ++ a ++ ['.', b] ∧
    v = (if negative then -1 else 1) * ((Nat.ofDigitChars 10 a 0 : ℚ) + (Nat.ofDigitChars 10 [b] 0 : ℚ) / 10)

/-- The text is the integer `n`, after spaces. -/
def ReadsInt (l : List Char) (n : ℤ) : Prop :=
  ∃ (spaces : ℕ) (negative : Bool) (a : List Char), a ≠ [] ∧ (∀ ch ∈ a, ch.isDigit = true) ∧
    l = List.replicate spaces ' ' ++ (if negative then ['-'] else []) ++ a ∧
    n = (if negative then -1 else 1) * (Nat.ofDigitChars 10 a 0 : ℤ)

/-- The texts at a place. -/
def textsAt (t : Texts) (p : Place) : List (List Char) := (t.filter fun q => decide (q.1 = p)).map Prod.snd

end Postpic.Spec
