import Verif.Model.Io

/-!
# Model of the bytes of a VTK file

`postpic/io/vtk.py`: what is written to the file, in which order, and what remains in the file if an exception is raised in between. How python writes a
floating point number as text and how numpy encodes it in 4 or 8 bytes are parameters.
-/

set_option autoImplicit false

namespace Postpic.Io

open Postpic Postpic.Axes Postpic.Fields

/-- The content of a file. -/
abbrev Bytes := List UInt8

/-- The byte of an ascii character. -/
def charByte (c : Char) : UInt8 := UInt8.ofNat c.toNat

/-- `s.encode('ascii')`: other characters raise UnicodeEncodeError, which is a ValueError. -/
def encodeAscii (s : List Char) : Res Bytes :=
  if s.all fun c => decide (c.toNat < 128) then .ok (s.map charByte) else .error .valueError

/-- `'{} {} ... {}'.format(...)`. -/
def spaced : List (List Char) → List Char
  | [] => []
  | [w] => w
  | w :: ws => w ++ ' ' :: spaced ws

/-- `file.write('{} ... {}\n'.format(...).encode('ascii'))`. -/
def writeLine (ws : List (List Char)) : Res Bytes := encodeAscii (spaced ws ++ ['\n'])

/-- `'{}'.format(n)` for an integer. -/
def natText (n : ℕ) : List Char := Nat.toDigits 10 n

/-- The argument `type`. `vtk.py:143-149`. -/
inductive VtkType where
  | double
  | float
  deriving DecidableEq

/-- The type written to the file. -/
def VtkType.text : VtkType → List Char
  | .double => "double".toList
  | .float => "float".toList

/-- `vtk.type` and `vtk.dtype`. `vtk.py:143-149`. -/
def vtkType (type : List Char) : Res VtkType :=
  if type = "double".toList then .ok .double
  else if type = "float".toList then .ok .float
  else .error .valueError

/-- The representation of numbers: `'{}'.format(v)`, and `v.astype(dtype).tobytes()` with big endian `dtype`. -/
structure NumWriter (K : Type) where
  text : K → List Char
  bytes : VtkType → K → Bytes

section
variable {K V : Type}

/-- `StructuredPoints.tofile` and `RectilinearGrid.tofile`: the calls of `write`, an argument may raise an exception. The format string has three places:
fewer numbers raise IndexError, the constructors have checked this. `vtk.py:94-98`, `114-128`. -/
def DataSet.writes (wr : NumWriter K) (t : VtkType) : DataSet K → List (Res Bytes)
  | .structuredPoints dims origin spacing =>
    [writeLine ["DATASET".toList, "STRUCTURED_POINTS".toList],
      writeLine ("DIMENSIONS".toList :: dims.map natText),
      writeLine ("ORIGIN".toList :: origin.map wr.text),
      writeLine ("SPACING".toList :: spacing.map wr.text)]
  | .rectilinearGrid grid =>
    [writeLine ["DATASET".toList, "RECTILINEAR_GRID".toList],
      writeLine ("DIMENSIONS".toList :: grid.map fun g => natText g.length)] ++
    (("XYZ".toList.zip grid).flatMap fun p =>
      [writeLine [p.1 :: "_COORDINATES".toList, natText p.2.length, t.text],
        .ok (p.2.flatMap (wr.bytes t)), .ok ['\n'.toNat.toUInt8]])

/-- `ArrayData`: the kind, the name and the fields. `vtk.py:217-224`, `249-252`, `263-266`. -/
structure ArrayData (K V : Type) where
  kind : VtkKind
  name : List Char
  fields : List (Field K V)

/-- `str(name).replace(' ', '_')`. `vtk.py:224`. -/
def underscore (name : List Char) : List Char := name.map fun c => if c = ' ' then '_' else c

/-- The constructors of `Vectors` and `Scalars`. `vtk.py:217-224`, `249-252`, `263-266`. -/
def arrayData (kind : VtkKind) (name : Option (List Char)) (fields : List (Field K V)) : Res (ArrayData K V) := do
  if kind = .vectors ∧ fields.length ≠ 3 then throw .valueError
  if kind = .scalars ∧ 4 < fields.length then throw .valueError
  let n ← match name with
    | some n => pure n
    | none => (pyGet fields 0).map fun f => f.name.toList
  return ⟨kind, underscore n, fields⟩

/-- `Vectors.tofile` and `Scalars.tofile`. `vtk.py:226-239`, `254-256`, `268-272`. -/
def ArrayData.writes [Inhabited V] (wr : NumWriter V) (t : VtkType) (a : ArrayData K V) : List (Res Bytes) :=
  (match a.kind with
    | .vectors => [writeLine ["VECTORS".toList, a.name, t.text]]
    | .scalars => [writeLine ["SCALARS".toList, a.name, t.text, natText a.fields.length],
        writeLine ["LOOKUP_TABLE".toList, "default".toList]]) ++
  [(transformData a.fields).map fun l => l.flatMap (wr.bytes t)]

/-- `len(arraydata)`. `vtk.py:241-242`. -/
def ArrayData.len (a : ArrayData K V) : Res ℕ := do
  return (← pyGet a.fields 0).shape.foldl (· * ·) 1

/-- `PointData` or `CellData`. -/
inductive Attribute (K V : Type) where
  | point (a : ArrayData K V)
  | cell (a : ArrayData K V)

/-- `PointData.tofile` and `CellData.tofile`; the latter calls `super(PointData, self)`, where `self` is no `PointData`: TypeError.
`vtk.py:198-200`, `207-209`. -/
def Attribute.writes [Inhabited V] (wr : NumWriter V) (t : VtkType) : Attribute K V → List (Res Bytes)
  | .point a => (do writeLine ["POINT_DATA".toList, natText (← a.len)]) :: a.writes wr t
  | .cell a => [do writeLine ["CELL_DATA".toList, natText (← a.len)], .error .typeError]

/-- Write one piece after the other until an exception: the content of the file, and the exception. -/
def runWrites : List (Res Bytes) → Bytes × Option Err
  | [] => ([], none)
  | .error e :: _ => ([], some e)
  | .ok b :: rest => (b ++ (runWrites rest).1, (runWrites rest).2)

/-- `VtkFile.__enter__`. `vtk.py:151-156`. -/
def vtkHeader : List (Res Bytes) :=
  [encodeAscii "# vtk DataFile Version 2.0\n".toList, encodeAscii "PostPic exported data\n".toList, encodeAscii "BINARY\n".toList]

/-- `VtkData(dataset, *data).tofile(fname, type, mode)`: the content of the file afterwards (`none` if there is no such file), and the exception.
`raise NotImplemented(...)` is a TypeError. `vtk.py:136-149`, `167-180`. -/
def vtkTofile [Inhabited V] (wk : NumWriter K) (wv : NumWriter V) (dataset : DataSet K) (data : List (Attribute K V)) (type mode : List Char)
    (old : Option Bytes) : Option Bytes × Option Err :=
  if mode ≠ "binary".toList then (old, some .typeError)
  else match vtkType type with
    | .error e => (old, some e)
    | .ok t =>
      let r := runWrites (vtkHeader ++ dataset.writes wk t ++ data.flatMap (Attribute.writes wv t))
      (some r.1, r.2)

end

/-- The arguments of the export functions; a missing `name` is `none`. `vtk.py:287-293`. -/
structure VtkArgs where
  name : Option (List Char)
  type : List Char
  unstagger : Bool
  skipAxesCheck : Bool

/-- The default values. `vtk.py:287-293`. -/
def VtkArgs.default : VtkArgs := ⟨none, "float".toList, true, false⟩

section
variable {K V : Type} [_root_.Field K] [LinearOrder K]

/-- `_export_arraydata_vtk` from the test of the number of axes up to the call of `tofile`. `vtk.py:302-316`. -/
def prepareData (spl : Splines K) (kind : VtkKind) (name : Option (List Char)) (fields : List (Field K V)) : Res (DataSet K × ArrayData K V) := do
  let f0 ← pyGet fields 0
  if 3 < f0.shape.length then throw .valueError
  if f0.shape.length = 1 then throw .valueError
  let fields ← fields.mapM fun f => f.atleastNd spl 3
  let f0 ← pyGet fields 0
  let dataset ← if f0.axes.all (fun ax => ax.isLinear) then structuredPoints f0
    else rectilinearGrid f0
  let a ← arrayData kind name fields
  return (dataset, a)

/-- `_export_arraydata_vtk` up to the call of `tofile`. `vtk.py:287-316`. -/
def prepareVtk (spl : Splines K) (unst : List (Field K V) → Res (List (Field K V))) (kind : VtkKind) (args : VtkArgs)
    (fields : List (Field K V)) : Res (DataSet K × ArrayData K V) := do
  let name := if args.name = some [] then some "Field".toList else args.name
  let f0 ← pyGet fields 0
  let same ← fields.tail.mapM fun f => axesEq f.axes f0.axes
  if !same.all id then
    if args.unstagger then prepareData spl kind name (← unst fields)
    else if !args.skipAxesCheck then throw .valueError
    else prepareData spl kind name fields
  else prepareData spl kind name fields

/-- `_export_arraydata_vtk`: the file afterwards and the exception. `vtk.py:275-318`. -/
def exportFile [Inhabited V] (wk : NumWriter K) (wv : NumWriter V) (spl : Splines K) (unst : List (Field K V) → Res (List (Field K V)))
    (kind : VtkKind) (args : VtkArgs) (fields : List (Field K V)) (old : Option Bytes) : Option Bytes × Option Err :=
  match prepareVtk spl unst kind args fields with
  | .error e => (old, some e)
  | .ok (dataset, a) => vtkTofile wk wv dataset [.point a] args.type "binary".toList old

/-- `export_scalars_vtk`; `export_scalar_vtk` is the case of one field. `vtk.py:321-327`, `351-364`. -/
def exportScalarsFile [Inhabited V] (wk : NumWriter K) (wv : NumWriter V) (spl : Splines K)
    (unst : List (Field K V) → Res (List (Field K V))) (args : VtkArgs) (fields : List (Field K V)) (old : Option Bytes) :
    Option Bytes × Option Err :=
  if 4 < fields.length then (old, some .valueError) else exportFile wk wv spl unst .scalars args fields old

/-- `export_vector_vtk`. `vtk.py:330-348`. -/
def exportVectorFile [Inhabited V] [Zero V] (wk : NumWriter K) (wv : NumWriter V) (spl : Splines K)
    (unst : List (Field K V) → Res (List (Field K V))) (args : VtkArgs) (fields : List (Field K V)) (old : Option Bytes) :
    Option Bytes × Option Err :=
  if 3 < fields.length then (old, some .valueError)
  else match ((List.range (3 - fields.length)).mapM fun (_ : ℕ) => do
      let f0 ← pyGet fields 0
      f0.replaceData ⟨f0.shape, fun _ => (0 : V)⟩ : Res (List (Field K V))) with
    | .error e => (old, some e)
    | .ok missing => exportFile wk wv spl unst .vectors args (fields ++ missing) old

end

end Postpic.Io
