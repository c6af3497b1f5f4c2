import Verif.Model.Species

/-!
# Specification of species names
-/

set_option autoImplicit false

namespace Postpic.Spec

open Postpic Postpic.Species

/-- What is used of the unicode tables: the ten digits have their values, letters, digits and the
underscore are word characters, the newline is none, and decimal digits are word characters. -/
structure Classes.Ok (cl : Classes) : Prop where
  digit : ∀ k : ℕ, k < 10 → cl.digit (Char.ofNat (48 + k)) = some k
  letter : ∀ c : Char, ('a' ≤ c ∧ c ≤ 'z') ∨ ('A' ≤ c ∧ c ≤ 'Z') ∨ c = '_' →
    cl.word c = true ∧ cl.digit c = none
  newline : cl.word '\n' = false
  digit_word : ∀ c, (cl.digit c).isSome → cl.word c = true

/-- A text which may end a name: word characters without separator. -/
def Plain (cl : Classes) (t : List Char) : Prop := ∀ c ∈ t, cl.word c = true ∧ c ≠ '_' ∧ c ≠ '/'

/-- Prefixes: words, each followed by a separator. -/
def prefixText : List (List Char) → List Char
  | [] => []
  | w :: ws => w ++ '_' :: prefixText ws

/-- The words of a prefix contain neither separators nor line breaks. -/
def Words (ws : List (List Char)) : Prop := ∀ w ∈ ws, '_' ∉ w ∧ '/' ∉ w ∧ '\n' ∉ w

/-- Some digits. -/
def Digits (cl : Classes) (t : List Char) : Prop := ∀ c ∈ t, (cl.digit c).isSome

/-- `Plus`, `k` times. -/
def pluses : ℕ → List Char
  | 0 => []
  | k + 1 => 'P' :: 'l' :: 'u' :: 's' :: pluses k

/-- The text does not begin with a character of the class. -/
def NotFirst (p : Char → Bool) (t : List Char) : Prop := ∀ c, t.head? = some c → p c = false

/-- Letters `a` to `z`. -/
def isLow (c : Char) : Bool := decide ('a' ≤ c ∧ c ≤ 'z')

/-- Letters `A` to `Z`. -/
def isUp (c : Char) : Bool := decide ('A' ≤ c ∧ c ≤ 'Z')

/-- The ways to write electron. -/
def electronWords : List (List Char) :=
  ["Elec".toList, "Elek".toList, "elec".toList, "elek".toList]

/-- The value of decimal digits. -/
def decimal (cl : Classes) : List Char → ℕ
  | [] => 0
  | c :: t => (cl.digit c).getD 0 * 10 ^ t.length + decimal cl t

/-- The answer contains this mass (in electron masses), charge (in elementary charges) and whether
it is an ion. -/
def Says (d : Dict) (mass charge : ℚ) (ision : Bool) : Prop :=
  d "mass" = some (.num mass) ∧ d "charge" = some (.num charge) ∧ d "ision" = some (.bool ision)

/-- The other entries of the answer: every word of the prefix is set, otherwise `tracer` and
`ejected` are unset, and `name` is the name. -/
def Flags (d : Dict) (species : String) (ws : List (List Char)) : Prop :=
  ∀ key, key ≠ "mass" → key ≠ "charge" → key ≠ "ision" → d key =
    if key.toList ∈ ws ∧ key ≠ "" then some (.bool true)
    else if key = "tracer" ∨ key = "ejected" then some (.bool false)
    else if key = "name" then some (.str species) else none

end Postpic.Spec
