import Mathlib.Data.Nat.Notation
import Mathlib.Data.List.Basic

/-!
# Specification for the version number

The state of a checked out repository, as git describes it.
-/

set_option autoImplicit false

namespace Postpic.Spec

/-- The closest tag with a version, the number of commits since, the (abbreviated) commit, and whether files were changed. -/
structure Checkout where
  tag : List Char
  commits : ℕ
  hash : List Char
  changed : Bool
  deriving DecidableEq

/-- A tag for a version: `v`, a digit, and further characters, but no blanks or line breaks (which git does not allow). The commit consists of
hexadecimal digits. -/
structure Checkout.Proper (s : Checkout) : Prop where
  tag : ∃ (d : Char) (l : List Char), s.tag = 'v' :: d :: l ∧ d.isDigit
  blanks : ∀ c ∈ s.tag, c ≠ ' ' ∧ c ≠ '\n' ∧ c ≠ '\r' ∧ c ≠ '\t'
  hash : s.hash ≠ []
  hex : ∀ c ∈ s.hash, c.isDigit ∨ ('a' ≤ c ∧ c ≤ 'f')

/-- The line printed by `git describe --tags --dirty --long`. -/
def Checkout.describe (s : Checkout) : List Char :=
  s.tag ++ '-' :: (Nat.toDigits 10 s.commits ++ '-' :: 'g' :: (s.hash ++ ((if s.changed then "-dirty".toList else []) ++ ['\n'])))

/-- Exactly the tagged commit without changes. -/
def Checkout.Released (s : Checkout) : Prop := s.commits = 0 ∧ s.changed = false

/-- The version number of a checkout: that of the tag, and behind `+` what happened since. -/
def Checkout.version (s : Checkout) : List Char :=
  s.tag.tail ++
    if s.commits = 0 ∧ s.changed = false then []
    else (if '+' ∈ s.tag then '.' else '+') ::
      (Nat.toDigits 10 s.commits ++ '.' :: 'g' :: (s.hash ++ if s.changed then ".dirty".toList else []))

/-- The keywords of a file which does not come from an archive. -/
def unexpanded : List Char := "$Format:%d$".toList

/-- The reference is a tag for the version `v`. -/
def VersionTag (refs : List (List Char)) (v : List Char) : Prop :=
  "tag: v".toList ++ v ∈ refs ∧ ∃ (d : Char) (l : List Char), v = d :: l ∧ d.isDigit

/-- The keyword `refnames` for the references `refs` to a commit. -/
def refLine : List (List Char) → List Char
  | [] => []
  | r :: rs => ' ' :: '(' :: (r ++ (rs.flatMap fun x => ',' :: ' ' :: x)) ++ [')']

/-- A name of a reference, possibly with the word in front: no commas, parentheses, tabs and line breaks, no blank at its ends. -/
structure RefName (r : List Char) : Prop where
  nonempty : r ≠ []
  chars : ∀ c ∈ r, c ≠ ',' ∧ c ≠ '(' ∧ c ≠ ')' ∧ c ≠ '\n' ∧ c ≠ '\r' ∧ c ≠ '\t'
  first : r.head? ≠ some ' '
  last : r.getLast? ≠ some ' '

end Postpic.Spec
