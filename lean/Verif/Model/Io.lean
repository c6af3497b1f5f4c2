import Verif.Model.Field

/-!
# Model of importing and exporting fields

`postpic/io/__init__.py`, `postpic/io/npy.py`, `postpic/io/vtk.py`, `Field.saveto`. The contents of
files are modelled as values; the encoding as bytes (numpy's npz format, big endian numbers) is not
modelled.
-/

set_option autoImplicit false

namespace Postpic.Io

open Postpic Postpic.Axes Postpic.Fields

/-! ## File names -/

/-- `str.lower()` as far as the results are compared with ascii letters: the only other characters
whose lower case form contains ascii letters are the Kelvin sign (`k`) and the capital I with dot
(`i` and a combining dot), the latter does not matter for the extensions used here. -/
def lowerChar (c : Char) : Char := if c = '\u212a' then 'k' else c.toLower

/-- `s.lower()`. -/
def lower (s : String) : String := s.map lowerChar

/-- `s.endswith(suffix)`. -/
def endsWith (s suffix : String) : Bool := suffix.toList.isSuffixOf s.toList

/-- The formats written by the exporters and expected by the importers. -/
inductive Format where
  | npz
  | csv
  | vtk
  | image
  deriving DecidableEq

/-- The name of the file written by `numpy.savez` and `numpy.savez_compressed`: they append the
extension if the name does not end with it (numpy documentation of `savez`). -/
def savezName (name : String) : String := if endsWith name ".npz" then name else name ++ ".npz"

/-- `export_field`: the name of the file which is written and its format. `io/__init__.py:60-79`,
`npy.py:63-74`, `csv.py:30-39`, `vtk.py:151-152`. -/
def exportField (name : String) : Res (String × Format) :=
  if endsWith (lower name) "npz" then .ok (savezName name, .npz)
  else if endsWith (lower name) "csv" then .ok (name, .csv)
  else if endsWith (lower name) "vtk" then .ok (name, .vtk)
  else .error .valueError

/-- `Field.saveto`. `datahandling.py:2285-2293`. -/
def saveto (name : String) : Res (String × Format) :=
  exportField (if endsWith name ".npz" then name else name ++ ".npz")

/-- `load_field`: the format the importer expects. `io/__init__.py:33-40`. -/
def loadField (name : String) : Res Format :=
  if !endsWith (lower name) "npz" then .error .valueError else .ok .npz

/-- `import_field`. `io/__init__.py:43-57`. -/
def importField (name : String) : Format :=
  if endsWith (lower name) "csv" then .csv else .image

/-! ## npz -/

/-- A field with its explicit label and its info string. `datahandling.py:571-577`. -/
structure LField (K V : Type) where
  field : Field K V
  label : Option String
  info : String

/-- `Field.label`. `datahandling.py:931-939`. -/
def LField.shownLabel {K V : Type} (f : LField K V) : String :=
  match f.label with
  | some l => if l ≠ "" then l
    else if f.field.unit = "" then f.field.name else f.field.name ++ " [" ++ f.field.unit ++ "]"
  | none => if f.field.unit = "" then f.field.name else f.field.name ++ " [" ++ f.field.unit ++ "]"

/-- The arrays in the file. -/
structure Npz (K V : Type) where
  matrix : Arr V
  metaField : List String
  edges : List (List K)
  grids : Option (List (List K))
  names : List String
  units : List String
  lengthEdges : List ℕ
  ats : List (Option Bool)
  tao : List (Option K)

/-- A string read back from a numpy array of strings: trailing NUL characters are lost. -/
def npStr (s : String) : String := String.ofList ((s.toList.reverse.dropWhile (· == '\x00')).reverse)

/-- Assigning to an element of `np.array([''] * n)`, an array of strings with one character:
everything after the first character is lost. -/
def npStr1 (s : String) : String := npStr (String.ofList (s.toList.take 1))

variable {K V : Type} [_root_.Field K] [LinearOrder K]

/-- `row[0:n] = l` for a row of zeros of length `m`: `l` must have `n` elements or a single one. -/
def assignRow (m n : ℕ) (l : List K) : Res (List K) :=
  if l.length = n then .ok (l ++ List.replicate (m - n) 0)
  else match l with
    | [x] => .ok (List.replicate n x ++ List.replicate (m - n) 0)
    | _ => .error .valueError

/-- `_export_field_npy`. `npy.py:31-74`. Axes without nodes are not modelled. -/
def exportNpz (f : LField K V) : Res (Npz K V) := do
  let lengthEdges := f.field.axes.map fun ax => ax.gridNode.length
  if lengthEdges = [] then throw .valueError
  let maxLength := lengthEdges.foldl max 0
  let edges ← f.field.axes.mapM fun ax => assignRow maxLength ax.gridNode.length ax.gridNode
  let grids ← f.field.axes.mapM fun ax => assignRow (maxLength - 1) (ax.gridNode.length - 1) ax.grid
  return {
    matrix := f.field.matrix
    metaField := [npStr f.field.name, npStr f.field.unit, npStr f.shownLabel, npStr f.info]
    edges := edges
    grids := some grids
    names := f.field.axes.map fun ax => npStr1 ax.name
    units := f.field.axes.map fun ax => npStr1 ax.unit
    lengthEdges := lengthEdges
    ats := f.field.ats
    tao := f.field.tao }

/-- `_import_field_npy`. `npy.py:77-116`. -/
def importNpz (spl : Splines K) (z : Npz K V) : Res (LField K V) := do
  let axes ← (List.range z.lengthEdges.length).mapM fun (nax : ℕ) =>
    let n := z.lengthEdges.getD nax 0
    mkAxis spl {
      name := z.names.getD nax ""
      unit := z.units.getD nax ""
      gridNode := some ((z.edges.getD nax []).take n)
      grid := z.grids.map fun g => (g.getD nax []).take (n - 1) }
  let f ← mkField z.matrix (z.metaField.getD 0 "") (z.metaField.getD 1 "") axes z.ats z.tao
  return ⟨f, some (z.metaField.getD 2 ""), z.metaField.getD 3 ""⟩

/-! ## vtk -/

/-- `Axis.__eq__`: the attributes are compared with `np.isclose`; arrays of different lengths raise
a `ValueError` unless one of them has length one. `datahandling.py:240-248`. -/
def iscloseAll (a b : List K) : Res Bool :=
  match bcast a b with
  | none => .error .valueError
  | some l => .ok (l.all fun p => isclose p.1 p.2)

/-- `Axis.__eq__`. `datahandling.py:240-248`. -/
def axisEq (a b : Axis K) : Res Bool := do
  if !(isclose a.extent.1 b.extent.1 && isclose a.extent.2 b.extent.2) then return false
  if !(← iscloseAll a.gridNode b.gridNode) then return false
  iscloseAll a.grid b.grid

/-- `==` for lists of axes. -/
def axesEq : List (Axis K) → List (Axis K) → Res Bool
  | [], [] => .ok true
  | a :: l, b :: m => do
    if l.length ≠ m.length then return false
    if !(← axisEq a b) then return false
    axesEq l m
  | _, _ => .ok false

/-- All entries of the array, the first dimension runs fastest: `np.ravel(a, order='F')`. -/
def indicesF : List ℕ → List (List ℕ)
  | [] => [[]]
  | n :: shape => (indicesF shape).flatMap fun t => (List.range n).map (· :: t)

/-- `np.ravel(a, order='F')`. -/
def ravelF {W : Type} (a : Arr W) : List W := (indicesF a.shape).map a.at'

/-- `np.vstack` of one dimensional arrays. -/
def vstack [Inhabited V] (rows : List (List V)) : Res (Arr V) :=
  match rows with
  | [] => .error .valueError
  | r :: rs =>
    if rs.all (fun s => s.length = r.length) then
      .ok ⟨[rows.length, r.length],
        fun idx => (rows.getD (idx.getD 0 0) []).getD (idx.getD 1 0) default⟩
    else .error .valueError

/-- `transform_data`. `vtk.py:226-229`. -/
def transformData [Inhabited V] (fields : List (Field K V)) : Res (List V) := do
  let data ← vstack (fields.map fun f => ravelF f.matrix)
  return ravelF data

/-- The description of the grid points in the file. -/
inductive DataSet (K : Type) where
  | structuredPoints (dimensions : List ℕ) (origin spacing : List K)
  | rectilinearGrid (grid : List (List K))

/-- `StructuredPoints.from_field`. `vtk.py:79-92`. -/
def structuredPoints (f : Field K V) : Res (DataSet K) := do
  if f.dims ≠ 3 then throw .valueError
  let origin ← f.axes.mapM fun ax => pyGet ax.grid 0
  let spacing ← f.axes.mapM fun ax => ax.spacing
  return .structuredPoints (f.axes.map Axis.len) origin spacing

/-- `RectilinearGrid.from_field`. `vtk.py:105-112`. -/
def rectilinearGrid (f : Field K V) : Res (DataSet K) := do
  if f.axes.length ≠ 3 then throw .valueError
  return .rectilinearGrid (f.axes.map (·.grid))

/-- `Vectors` or `Scalars`. -/
inductive VtkKind where
  | vectors
  | scalars
  deriving DecidableEq

/-- The content of the file: grid, `POINT_DATA`, number of components, data block. -/
structure VtkFile (K V : Type) where
  dataset : DataSet K
  points : ℕ
  components : ℕ
  data : List V

/-- `_export_arraydata_vtk`; `unst` stands for `unstagger_fields`, which interpolates fields on
different grids (`unstaggerFields` with `byFourierReal`). `vtk.py:275-318`. -/
def exportArraydata [Inhabited V] (spl : Splines K)
    (unst : List (Field K V) → Res (List (Field K V))) (kind : VtkKind)
    (unstagger skipAxesCheck : Bool) (fields : List (Field K V)) : Res (VtkFile K V) := do
  let f0 ← pyGet fields 0
  let same ← fields.tail.mapM fun f => axesEq f.axes f0.axes
  let fields ← if !same.all id then
      (if unstagger then unst fields
        else if !skipAxesCheck then throw .valueError else pure fields)
    else pure fields
  let f0 ← pyGet fields 0
  if 3 < f0.shape.length then throw .valueError
  if f0.shape.length = 1 then throw .valueError
  let fields ← fields.mapM fun f => f.atleastNd spl 3
  let f0 ← pyGet fields 0
  let dataset ← if f0.axes.all (fun ax => ax.isLinear) then structuredPoints f0
    else rectilinearGrid f0
  if kind = .vectors ∧ fields.length ≠ 3 then throw .valueError
  if kind = .scalars ∧ 4 < fields.length then throw .valueError
  let data ← transformData fields
  return ⟨dataset, f0.shape.foldl (· * ·) 1, fields.length, data⟩

/-- `export_scalars_vtk`. `vtk.py:351-364`. -/
def exportScalars [Inhabited V] (spl : Splines K)
    (unst : List (Field K V) → Res (List (Field K V))) (unstagger skipAxesCheck : Bool)
    (fields : List (Field K V)) : Res (VtkFile K V) :=
  if 4 < fields.length then .error .valueError
  else exportArraydata spl unst .scalars unstagger skipAxesCheck fields

/-- `export_vector_vtk`: missing components are zero. `vtk.py:330-348`. -/
def exportVector [Inhabited V] [Zero V] (spl : Splines K)
    (unst : List (Field K V) → Res (List (Field K V))) (unstagger skipAxesCheck : Bool)
    (fields : List (Field K V)) : Res (VtkFile K V) := do
  if 3 < fields.length then throw .valueError
  let missing ← (List.range (3 - fields.length)).mapM fun (_ : ℕ) => do
    let f0 ← pyGet fields 0
    f0.replaceData ⟨f0.shape, fun _ => (0 : V)⟩
  exportArraydata spl unst .vectors unstagger skipAxesCheck (fields ++ missing)

end Postpic.Io
