import Verif.Spec.Io
import Verif.Model.VtkBytes

/-!
# Specification of the legacy VTK file format

A reader of files, written after the description of the format (`The VTK User's Guide`, "Simple Legacy Formats"): three lines of header, then keywords with
words which are separated by blanks; binary data follow after the end of the line of their keyword.
-/

set_option autoImplicit false

namespace Postpic.Spec

open Postpic Postpic.Io

/-- The characters between words. -/
def isBlank (c : Char) : Bool := [' ', '\t', '\n', '\r', '\x0b', '\x0c'].contains c

/-- The words of a line; `acc` is the beginning of a word. -/
def wordsFrom (acc : List Char) : List Char → List (List Char)
  | [] => if acc = [] then [] else [acc]
  | c :: cs => if isBlank c then (if acc = [] then wordsFrom [] cs else acc :: wordsFrom [] cs) else wordsFrom (acc ++ [c]) cs

/-- The next line and what follows. -/
def nextLine : Bytes → Option (List Char × Bytes)
  | [] => none
  | b :: r => if b = 10 then some ([], r) else (nextLine r).map fun p => (Char.ofNat b.toNat :: p.1, p.2)

/-- Blanks and empty lines before a keyword do not count. -/
def skipBlanks (r : Bytes) : Bytes := r.dropWhile fun b => isBlank (Char.ofNat b.toNat)

/-- A line which begins with the keyword `k`: its other words and what follows. -/
def keyword (k : String) (r : Bytes) : Option (List (List Char) × Bytes) := do
  let (l, r) ← nextLine (skipBlanks r)
  match wordsFrom [] l with
  | w :: ws => if w = k.toList then some (ws, r) else none
  | [] => none

/-- A natural number. -/
def readNat (w : List Char) : Option ℕ := if w ≠ [] ∧ w.all Char.isDigit then some (Nat.ofDigitChars 10 w 0) else none

/-- The types of the values. -/
def readType (w : List Char) : Option VtkType :=
  if w = "double".toList then some .double else if w = "float".toList then some .float else none

/-- The number of bytes of a value. -/
def typeSize : VtkType → ℕ
  | .double => 8
  | .float => 4

/-- How the reader understands numbers: as text, and as the bytes of one value. -/
structure NumReader (K : Type) where
  number : List Char → Option K
  value : VtkType → Bytes → Option K

/-- `n` binary values and what follows. -/
def readValues {K : Type} (rd : NumReader K) (t : VtkType) : ℕ → Bytes → Option (List K × Bytes)
  | 0, r => some ([], r)
  | n + 1, r =>
    if r.length < typeSize t then none
    else do
      let v ← rd.value t (r.take (typeSize t))
      let (l, r) ← readValues rd t n (r.drop (typeSize t))
      return (v :: l, r)

/-- Exactly three numbers. -/
def three {α : Type} (f : List Char → Option α) (ws : List (List Char)) : Option (List α) := if ws.length = 3 then ws.mapM f else none

/-- The coordinates along one axis. -/
def readCoordinates {K : Type} (rd : NumReader K) (k : String) (r : Bytes) : Option (List K × Bytes) := do
  match ← keyword k r with
  | ([n, t], r) => readValues rd (← readType t) (← readNat n) r
  | _ => none

/-- The description of the points. -/
def readPoints {K : Type} (rd : NumReader K) (r : Bytes) : Option (DataSet K × Bytes) := do
  let (w, r) ← keyword "DATASET" r
  let (d, r) ← keyword "DIMENSIONS" r
  let dims ← three readNat d
  if w = ["STRUCTURED_POINTS".toList] then
    let (o, r) ← keyword "ORIGIN" r
    let origin ← three rd.number o
    let (s, r) ← keyword "SPACING" r
    let spacing ← three rd.number s
    return (.structuredPoints dims origin spacing, r)
  else if w = ["RECTILINEAR_GRID".toList] then
    let (x, r) ← readCoordinates rd "X_COORDINATES" r
    let (y, r) ← readCoordinates rd "Y_COORDINATES" r
    let (z, r) ← readCoordinates rd "Z_COORDINATES" r
    if [x.length, y.length, z.length] = dims then return (.rectilinearGrid [x, y, z], r) else none
  else none

/-- What a file tells: the points, and one array of values at the points. -/
structure VtkContent (K V : Type) where
  dataset : DataSet K
  points : ℕ
  kind : VtkKind
  name : List Char
  type : VtkType
  components : ℕ
  data : List V

/-- The values at the points, up to the end of the file. -/
def readArray {K V : Type} (rd : NumReader V) (dataset : DataSet K) (r : Bytes) : Option (VtkContent K V) := do
  match ← keyword "POINT_DATA" r with
  | ([n], r) =>
    let n ← readNat n
    if n ≠ (vtkDimensions dataset).foldr (· * ·) 1 then none
    else
      match keyword "VECTORS" r, keyword "SCALARS" r with
      | some ([name, t], r), _ =>
        let t ← readType t
        match ← readValues rd t (n * 3) r with
        | (l, []) => return ⟨dataset, n, .vectors, name, t, 3, l⟩
        | _ => none
      | _, some ([name, t, k], r) =>
        let t ← readType t
        let k ← readNat k
        match ← keyword "LOOKUP_TABLE" r with
        | ([_], r) =>
          match ← readValues rd t (n * k) r with
          | (l, []) => return ⟨dataset, n, .scalars, name, t, k, l⟩
          | _ => none
        | _ => none
      | _, _ => none
  | _ => none

/-- Read a binary file with one array of values. -/
def readVtk {K V : Type} (rk : NumReader K) (rv : NumReader V) (file : Bytes) : Option (VtkContent K V) := do
  let (magic, r) ← nextLine file
  let (_, r) ← nextLine r
  let (format, r) ← nextLine r
  if magic = "# vtk DataFile Version 2.0".toList ∧ format = "BINARY".toList then
    let (dataset, r) ← readPoints rk r
    readArray rv dataset r
  else none

/-- The reader understands the binary values of the writer, after rounding to their type. -/
structure ReadsValues {K : Type} (wr : NumWriter K) (rd : NumReader K) (round : VtkType → K → K) : Prop where
  size : ∀ t v, (wr.bytes t v).length = typeSize t
  value : ∀ t v, rd.value t (wr.bytes t v) = some (round t v)

/-- The reader understands what the writer writes: binary values, and the texts of the numbers with the property `P` exactly. Numbers as text consist of
visible ascii characters. -/
structure Understands {K : Type} (P : K → Prop) (wr : NumWriter K) (rd : NumReader K) (round : VtkType → K → K) : Prop extends ReadsValues wr rd round where
  text : ∀ v, P v → rd.number (wr.text v) = some v
  visible : ∀ v, wr.text v ≠ [] ∧ ∀ c ∈ wr.text v, 32 < c.toNat ∧ c.toNat < 128

/-- The name of the exported array: the argument, or the name of the first field if there is no argument; an empty argument is replaced. -/
def exportName (arg : Option (List Char)) (fieldName : String) : List Char :=
  match arg with
  | some [] => "Field".toList
  | some n => n
  | none => fieldName.toList

/-- A name which can be written as a word: not empty, ascii, and no blanks other than `' '`, which is replaced. -/
def WritableName (name : List Char) : Prop := name ≠ [] ∧ ∀ c ∈ name, c.toNat < 128 ∧ (isBlank c = true → c = ' ')

end Postpic.Spec
