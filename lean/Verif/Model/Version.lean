import Mathlib.Data.List.Dedup
import Verif.Model.Series
import Verif.Model.TextImage

/-!
# Model of the version number

`postpic.__version__`, which is also written to exported files: `postpic/_version.py:23-683`, `postpic/__init__.py:76-80`. Only the style
`pep440` is modelled, which is the one in the configuration. What git answers is a parameter.
-/

set_option autoImplicit false

namespace Postpic.Version

open Postpic Postpic.Io

/-- White space, which `str.strip()` removes (the ascii part of it). -/
def blank (c : Char) : Bool := c == ' ' || c == '\n' || c == '\r' || c == '\t'

/-- `text.strip(chars)`. -/
def strip (p : Char → Bool) (l : List Char) : List Char := ((l.dropWhile p).reverse.dropWhile p).reverse

/-- The text before and after the last character `c`. -/
def lastSplit (c : Char) (l : List Char) : Option (List Char × List Char) :=
  match l.reverse.dropWhile (· != c) with
  | [] => none
  | _ :: rest => some (rest.reverse, (l.reverse.takeWhile (· != c)).reverse)

/-- A lower case hexadecimal digit. -/
def isHex (c : Char) : Bool := c.isDigit || ('a' ≤ c && c ≤ 'f')

/-- `re.search(r'^(.+)-(\d+)-g([0-9a-f]+)$', text)`: as numbers and hexadecimal digits do not contain dashes, the groups
are those between the last two dashes. (`\d` also accepts other digits than those of ascii.) `_version.py:348`. -/
def describeGroups (l : List Char) : Option (List Char × List Char × List Char) :=
  match lastSplit '-' l with
  | none => none
  | some (front, hex) =>
    match lastSplit '-' front with
    | none => none
    | some (tag, num) =>
      match hex with
      | 'g' :: h =>
        if tag ≠ [] ∧ num ≠ [] ∧ num.all Char.isDigit ∧ h ≠ [] ∧ h.all isHex then some (tag, num, h) else none
      | _ => none

/-- What git prints: `git describe --tags --dirty --always --long --match v[[:digit:]]*`, `git rev-parse HEAD`, and the number of
commits which `git rev-list HEAD` lists. -/
structure Answers where
  describe : List Char
  head : List Char
  commits : ℕ

/-- The entries `closest-tag`, `distance`, `short`, `dirty` of the dictionary. -/
structure Pieces where
  tag : Option (List Char)
  distance : ℕ
  short : List Char
  dirty : Bool
  deriving DecidableEq

/-- `git_pieces_from_vcs`; `none` if the entry `error` is set. The entries for the branch and the date are left out.
`_version.py:253-387`. -/
def gitPieces (tagPrefix : List Char) (g : Answers) : Option Pieces :=
  let describe := strip blank g.describe
  let dirty := "-dirty".toList.isSuffixOf describe
  let describe := if dirty then describe.take (describe.length - 6) else describe
  if '-' ∈ describe then
    match describeGroups describe with
    | none => none
    | some (tag, num, hex) =>
      if tagPrefix.isPrefixOf tag then some ⟨some (tag.drop tagPrefix.length), Nat.ofDigitChars 10 num 0, hex, dirty⟩ else none
  else some ⟨none, g.commits, (strip blank g.head).take 7, dirty⟩

/-- `render_pep440`. `_version.py:390-419`. -/
def renderPep440 (p : Pieces) : List Char :=
  let dirty := if p.dirty then ".dirty".toList else []
  match p.tag with
  | some (c :: t) =>
    if p.distance ≠ 0 ∨ p.dirty then
      (c :: t) ++ (if '+' ∈ c :: t then '.' else '+') :: (Nat.toDigits 10 p.distance ++ ".g".toList ++ p.short ++ dirty)
    else c :: t
  | _ => "0+untagged.".toList ++ Nat.toDigits 10 p.distance ++ ".g".toList ++ p.short ++ dirty

/-- The keywords which `git archive` puts into the file, `refnames` and `full`. `_version.py:23-33`. -/
structure Keywords where
  refnames : List Char
  full : List Char

/-- The text behind the prefix, if it starts with a digit. `_version.py:229-236`. -/
def versionOf (tagPrefix r : List Char) : Option (List Char) :=
  if tagPrefix.isPrefixOf r then
    match r.drop tagPrefix.length with
    | c :: l => if c.isDigit then some (c :: l) else none
    | [] => none
  else none

/-- The result for the names `tags`, which is a set. `_version.py:227-249`. -/
def firstVersion (tagPrefix full : List Char) (tags : List (List Char)) : List Char × Option (List Char) :=
  match (Readers.sortNames tags.dedup).filterMap (versionOf tagPrefix) with
  | v :: _ => (v, some (strip blank full))
  | [] => ("0+unknown".toList, some (strip blank full))

/-- `git_versions_from_keywords`: the version and the commit, `none` for the exception NotThisMethod. `_version.py:185-249`. -/
def keywordVersion (tagPrefix : List Char) (k : Keywords) : Option (List Char × Option (List Char)) :=
  let refnames := strip blank k.refnames
  if "$Format".toList.isPrefixOf refnames then none
  else
    let refs := ((splitOn ',' (strip (fun c => c == '(' || c == ')') refnames)).map (strip blank)).dedup
    let tags := (refs.filter fun r => "tag: ".toList.isPrefixOf r).map (·.drop 5)
    some (firstVersion tagPrefix k.full (if tags.isEmpty then refs.filter fun r => r.any Char.isDigit else tags))

/-- `versions_from_parentdir`: `dirs` are the names of the directory and of those above. `_version.py:128-153`. -/
def parentVersion (parentPrefix : List Char) (dirs : List (List Char)) : Option (List Char) :=
  ((dirs.take 3).find? fun d => parentPrefix.isPrefixOf d).map (·.drop parentPrefix.length)

/-- `get_versions`: the version and the commit. The prefix of the directory is the text `None`, which comes from the missing entry in the
configuration. Without an answer git is missing or the directory does not belong to a repository. `_version.py:47-58, 604-683`. -/
def getVersions (k : Keywords) (git : Option Answers) (dirs : List (List Char)) : List Char × Option (List Char) :=
  match keywordVersion ['v'] k with
  | some r => r
  | none =>
    match git with
    | some g =>
      match gitPieces ['v'] g with
      | some p => (renderPep440 p, some (strip blank g.head))
      | none => ("unknown".toList, some (strip blank g.head))
    | none =>
      match parentVersion "None".toList dirs with
      | some v => (v, none)
      | none => ("0+unknown".toList, none)

/-- `postpic.__version__`; `none` is `None`. `__init__.py:76-80`. -/
def packageVersion (k : Keywords) (git : Option Answers) (dirs : List (List Char)) : Option (List Char) :=
  let r := getVersions k git dirs
  if r.1 = "0+unknown".toList then r.2 else some r.1

end Postpic.Version
