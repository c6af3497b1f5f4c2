import Mathlib.Algebra.Order.Field.Basic
import Verif.Model.Field

/-!
# Model of the grids reported by the dump readers

`postpic/datareader/datareader.py` (`Dumpreader_ifc`), `epochsdf.py`, `openPMDh5.py`, `smileih5.py`,
`dummy.py`, and the creation of fields in `postpic/_field_calc.py`. The content of a dump is given; reading
files is not modelled.
-/

set_option autoImplicit false

namespace Postpic.Readers

open Postpic Postpic.Axes Postpic.Fields

/-- What a user gives to name an axis. `None`, which stands for all axes at once, is not modelled. -/
inductive AxisKey where
  | str (s : String)
  | int (n : ℤ)
  deriving DecidableEq

/-- `helper.axesidentify`. `helper.py:81-86`. -/
def axesidentify : AxisKey → Res ℕ
  | .str "X" => .ok 0 | .str "x" => .ok 0 | .int 0 => .ok 0
  | .str "Y" => .ok 1 | .str "y" => .ok 1 | .int 1 => .ok 1
  | .str "Z" => .ok 2 | .str "z" => .ok 2 | .int 2 => .ok 2
  | .str "R" => .ok 90 | .str "r" => .ok 90 | .int 90 => .ok 90
  | .str "theta" => .ok 91 | .str "t" => .ok 91 | .int 91 => .ok 91
  | _ => .error .keyError

/-- A number of points. In python 3 the operator `/` makes a float of it. -/
inductive Points (K : Type) where
  | int (n : ℤ)
  | float (x : K)

variable {K : Type} [_root_.Field K] [LinearOrder K]

/-- The value of a number of points. -/
def Points.val : Points K → K
  | .int n => n
  | .float x => x

/-- `n + 1`. -/
def Points.succ : Points K → Points K
  | .int n => .int (n + 1)
  | .float x => .float (x + 1)

/-- `np.linspace(a, b, m)`: `m` must be an integer (numpy 1.18 and newer) which is not negative. -/
def linspaceNum (a b : K) : Points K → Res (List K)
  | .float _ => .error .typeError
  | .int m => if m < 0 then .error .valueError else .ok (linspace a b m.toNat)

/-- `np.convolve(l, [0.5, 0.5], mode='valid')`. If there is only one value numpy swaps the arguments. -/
def convolveHalf : List K → Res (List K)
  | [] => .error .valueError
  | [x] => .ok [x / 2, x / 2]
  | l => .ok (mids l)

/-! ### The interface -/

/-- The methods of `Dumpreader_ifc` that the implementations provide. -/
structure Reader (K : Type) where
  gridoffset : String → AxisKey → Res K
  gridspacing : String → AxisKey → Res K
  gridpoints : String → AxisKey → Res (Points K)
  simgridkeys : List String

/-- `gridnode`. `datareader.py:140-149`. -/
def Reader.gridnode (r : Reader K) (key : String) (axis : AxisKey) : Res (List K) := do
  let offset ← r.gridoffset key axis
  let n ← r.gridpoints key axis
  let h ← r.gridspacing key axis
  linspaceNum offset (offset + h * n.val) n.succ

/-- `grid`. `datareader.py:151-152`. -/
def Reader.grid (r : Reader K) (key : String) (axis : AxisKey) : Res (List K) := do
  convolveHalf (← r.gridnode key axis)

/-- `for key in ...: try: return f(key) except KeyError: pass`, and a `KeyError` at the end. -/
def firstKey {α : Type} (f : String → Res α) : List String → Res α
  | [] => .error .keyError
  | k :: ks => match f k with
    | .ok a => .ok a
    | .error .keyError => firstKey f ks
    | .error e => .error e

/-- `simgridpoints`. `datareader.py:219-225`. -/
def Reader.simgridpoints (r : Reader K) (axis : AxisKey) : Res (Points K) :=
  firstKey (fun key => r.gridpoints key axis) r.simgridkeys

/-- The body of the loop in `simextent`. -/
def Reader.extentOf (r : Reader K) (axis : AxisKey) (key : String) : Res (K × K) := do
  let offset ← r.gridoffset key axis
  let n ← r.gridpoints key axis
  let h ← r.gridspacing key axis
  return (offset, offset + h * n.val)

/-- `simextent`. `datareader.py:227-239`. -/
def Reader.simextent (r : Reader K) (axis : AxisKey) : Res (K × K) :=
  firstKey (r.extentOf axis) r.simgridkeys

/-- `(extent[1]-extent[0])/points`. The division of numpy floats by 0 gives `nan` or `inf`, reported as
undefined behaviour. -/
def spacingOf (extent : K × K) (n : Points K) : Res K :=
  if n.val = 0 then .error .undefinedBehaviour else .ok ((extent.2 - extent.1) / n.val)

/-- `simgridspacing`. `datareader.py:241-243`. -/
def Reader.simgridspacing (r : Reader K) (axis : AxisKey) : Res K := do
  let extent ← r.simextent axis
  let n ← r.simgridpoints axis
  spacingOf extent n

/-! ### EPOCH -/

/-- A mesh of an sdf file: the lower ends of all axes and then the upper ends, the number of points of
each axis and their positions. -/
structure SdfMesh (K : Type) where
  extents : List K
  dims : List ℤ
  data : List (List K)

/-- A variable of an sdf file, with its mesh and the positions in the middle between the points of
the mesh. -/
structure SdfBlock (K : Type) where
  grid : SdfMesh K
  gridMid : List (List K)
  dims : List ℤ
  stagger : Option ℕ

/-- What `sdf.read` returns. `epochsdf.py:72-93`. -/
structure SdfDump (K : Type) where
  block : String → Option (SdfBlock K)
  mesh : Option (SdfMesh K)

/-- `self[key]`. -/
def SdfDump.get (d : SdfDump K) (key : String) : Res (SdfBlock K) :=
  match d.block key with
  | some b => .ok b
  | none => .error .keyError

/-- `_default_stagger` without the averaged fields. `epochsdf.py:49-57`. -/
def defaultStagger0 : List (String × ℕ) :=
  [("Electric Field/Ex", 1), ("Electric Field/Ey", 2), ("Electric Field/Ez", 4),
   ("Magnetic Field/Bx", 6), ("Magnetic Field/By", 5), ("Magnetic Field/Bz", 3),
   ("Current/Jx", 1), ("Current/Jy", 2), ("Current/Jz", 4)]

/-- `_default_stagger`. `epochsdf.py:49-58`. -/
def defaultStagger : List (String × ℕ) :=
  defaultStagger0 ++ defaultStagger0.map fun p => (p.1 ++ "_averaged", p.2)

/-- The stagger of a variable; derived and unknown variables are not staggered. `epochsdf.py:110-121`. -/
def staggerOf (key : String) (b : SdfBlock K) : ℕ :=
  match b.stagger with
  | some s => s
  | none => match defaultStagger.lookup key with
    | some s => s
    | none => 0

/-- The letter of a component. `epochsdf.py:151, 158`. -/
def componentLetter (component : AxisKey) : Res String := do
  match ← axesidentify component with
  | 0 => .ok "x"
  | 1 => .ok "y"
  | 2 => .ok "z"
  | _ => .error .keyError

/-- `_keyE`. `epochsdf.py:150-155`. -/
def epochKeyE (component : AxisKey) (average : Bool) : Res String := do
  return "Electric Field/E" ++ (← componentLetter component) ++ (if average then "_averaged" else "")

/-- `_keyB`. `epochsdf.py:157-162`. -/
def epochKeyB (component : AxisKey) (average : Bool) : Res String := do
  return "Magnetic Field/B" ++ (← componentLetter component) ++ (if average then "_averaged" else "")

/-- `gridspacing`. `epochsdf.py:129-133`. The numbers of points are python integers, thus a division by 0
raises. -/
def SdfDump.gridspacing (d : SdfDump K) (key : String) (axis : AxisKey) : Res K := do
  let axid ← axesidentify axis
  let b ← d.get key
  let e1 ← pyGet b.grid.extents (axid + b.grid.dims.length)
  let e0 ← pyGet b.grid.extents axid
  let n ← pyGet b.grid.dims axid
  if n - 1 = 0 then throw .zeroDivisionError
  return (e1 - e0) / ((n - 1 : ℤ) : K)

/-- `gridoffset`. `epochsdf.py:107-127`. -/
def SdfDump.gridoffset (d : SdfDump K) (key : String) (axis : AxisKey) : Res K := do
  let axid ← axesidentify axis
  let dx ← d.gridspacing key axis
  let b ← d.get key
  if (staggerOf key b).testBit axid then
    return (← pyGet (← pyGet b.gridMid axid) 0) - dx / 2
  else
    return (← pyGet (← pyGet b.grid.data axid) 0) - dx / 2

/-- `gridpoints`. `epochsdf.py:135-137`. -/
def SdfDump.gridpoints (d : SdfDump K) (key : String) (axis : AxisKey) : Res (Points K) := do
  let axid ← axesidentify axis
  let b ← d.get key
  return .int (← pyGet b.dims axid)

/-- The reader for EPOCH; `_simgridkeys` is not overridden, `simextent` and `simgridpoints` are. -/
def SdfDump.reader (d : SdfDump K) : Reader K := ⟨d.gridoffset, d.gridspacing, d.gridpoints, []⟩

/-- `self['Grid/Grid']`. -/
def SdfDump.getMesh (d : SdfDump K) : Res (SdfMesh K) :=
  match d.mesh with
  | some m => .ok m
  | none => .error .keyError

/-- `simextent`. `epochsdf.py:164-175`. -/
def SdfDump.simextent (d : SdfDump K) (axis : AxisKey) : Res (K × K) := do
  let m ← d.getMesh
  let axid ← axesidentify axis
  if axid + m.dims.length ≥ m.extents.length then throw .keyError
  return (← pyGet m.extents axid, ← pyGet m.extents (axid + m.dims.length))

/-- `simgridpoints`. `epochsdf.py:177-183`. -/
def SdfDump.simgridpoints (d : SdfDump K) (axis : AxisKey) : Res (Points K) := do
  let m ← d.getMesh
  let axid ← axesidentify axis
  return .int ((← pyGet m.dims axid) - 1)

/-- `simgridspacing`. `datareader.py:241-243`. -/
def SdfDump.simgridspacing (d : SdfDump K) (axis : AxisKey) : Res K := do
  let extent ← d.simextent axis
  let n ← d.simgridpoints axis
  spacingOf extent n

/-! ### openPMD -/

/-- The attributes of a record (or of its parent) which describe the grid. -/
structure PmdAttrs (K : Type) where
  offset : Option (List K)
  spacing : Option (List K)
  unit : Option K

/-- A record: its own attributes, those of its parent, and the shape of the data. -/
structure PmdRecord (K : Type) where
  attrs : PmdAttrs K
  parent : PmdAttrs K
  shape : List ℕ

/-- A dump: the record for each key. -/
abbrev PmdDump (K : Type) := String → Option (PmdRecord K)

/-- A value which can be missing. -/
def orKeyError {α : Type} : Option α → Res α
  | some a => .ok a
  | none => .error .keyError

/-- The attributes used. `openPMDh5.py:100-103`. -/
def PmdRecord.gridAttrs (r : PmdRecord K) : PmdAttrs K := if r.attrs.unit.isSome then r.attrs else r.parent

/-- `gridoffset`. `openPMDh5.py:98-104`. -/
def PmdDump.gridoffset (d : PmdDump K) (key : String) (axis : AxisKey) : Res K := do
  let axid ← axesidentify axis
  let r ← orKeyError (d key)
  let l ← orKeyError r.gridAttrs.offset
  let x ← pyGet l axid
  let u ← orKeyError r.gridAttrs.unit
  return x * u

/-- `gridspacing`. `openPMDh5.py:106-112`. -/
def PmdDump.gridspacing (d : PmdDump K) (key : String) (axis : AxisKey) : Res K := do
  let axid ← axesidentify axis
  let r ← orKeyError (d key)
  let l ← orKeyError r.gridAttrs.spacing
  let x ← pyGet l axid
  let u ← orKeyError r.gridAttrs.unit
  return x * u

/-- `gridpoints`. `openPMDh5.py:114-116`. -/
def PmdDump.gridpoints (d : PmdDump K) (key : String) (axis : AxisKey) : Res (Points K) := do
  let axid ← axesidentify axis
  let r ← orKeyError (d key)
  let n ← pyGet r.shape axid
  return .int n

/-- `_simgridkeys`. `openPMDh5.py:146-148`. -/
def pmdSimgridkeys : List String :=
  ["fields/E/x", "fields/E/y", "fields/E/z", "fields/B/x", "fields/B/y", "fields/B/z"]

/-- `OpenPMDreader`. -/
def PmdDump.reader (d : PmdDump K) : Reader K := ⟨d.gridoffset, d.gridspacing, d.gridpoints, pmdSimgridkeys⟩

/-! ### fbpic -/

/-- The remapping `{90: 0, 2: 1}`. `openPMDh5.py:295, 305`. -/
def fbpicRemap : ℕ → Res AxisKey
  | 90 => .ok (.int 0)
  | 2 => .ok (.int 1)
  | _ => .error .keyError

/-- `gridoffset`. `openPMDh5.py:289-296`. -/
def fbpicOffset (d : PmdDump K) (key : String) (axis : AxisKey) : Res K := do
  let axid ← axesidentify axis
  if axid = 91 then return 0
  let k ← fbpicRemap axid
  PmdDump.gridoffset d key k

/-- The shape of the data after the expansion of the modes. `openPMDh5.py:312-317`. -/
def fbpicShape : List ℕ → Res (List ℕ)
  | [nm, nr, nz] => .ok [nr, (nm + 1) / 2, nz]
  | _ => .error .valueError

/-- `gridpoints`. `openPMDh5.py:309-317`. -/
def fbpicPoints (d : PmdDump K) (key : String) (axis : AxisKey) : Res ℕ := do
  let axid ← axesidentify axis
  let r ← orKeyError (d key)
  let s ← fbpicShape r.shape
  pyGet s ((axid % 90 : ℕ) : ℤ)

/-- `gridspacing`; `twoPi` is `2*np.pi`. `openPMDh5.py:299-306`. -/
def fbpicSpacing (twoPi : K) (d : PmdDump K) (key : String) (axis : AxisKey) : Res K := do
  let axid ← axesidentify axis
  if axid = 91 then
    let n ← fbpicPoints d key axis
    if n = 0 then throw .zeroDivisionError
    return twoPi / n
  let k ← fbpicRemap axid
  PmdDump.gridspacing d key k

/-- `FbpicReader`. -/
def fbpicReader (twoPi : K) (d : PmdDump K) : Reader K where
  gridoffset := fbpicOffset d
  gridspacing := fbpicSpacing twoPi d
  gridpoints key axis := do return .int (← fbpicPoints d key axis)
  simgridkeys := pmdSimgridkeys

/-! ### Smilei -/

/-- The axis of fields with modes. `smileih5.py:272, 283, 296`: `int(axid/90)`. -/
def smileiAxis (axid : ℕ) : AxisKey := .int ((axid / 90 : ℕ) : ℤ)

/-- `gridoffset`; `modes` are the fields which are given by modes. `smileih5.py:265-275`. -/
def smileiOffset (d : PmdDump K) (modes : List String) (key : String) (axis : AxisKey) : Res K := do
  let axid ← axesidentify axis
  if axid = 91 then return 0
  if key ∈ modes ∧ (axid = 0 ∨ axid = 90) then PmdDump.gridoffset d (key ++ "_mode_0") (smileiAxis axid)
  else PmdDump.gridoffset d key axis

/-- `gridspacing`. `smileih5.py:278-286`. -/
def smileiSpacing (d : PmdDump K) (modes : List String) (key : String) (axis : AxisKey) : Res K := do
  let axid ← axesidentify axis
  if key ∈ modes ∧ (axid = 0 ∨ axid = 90) then PmdDump.gridspacing d (key ++ "_mode_0") (smileiAxis axid)
  else PmdDump.gridspacing d key axis

/-- The shape of fields with modes. The second entry is a float. `smileih5.py:294-297`. -/
def smileiShape : List ℕ → Res (List (Points K))
  | [nx, nr] => .ok [.int nx, .float ((nr : K) / 2)]
  | _ => .error .valueError

/-- `gridpoints`. `smileih5.py:289-299`. -/
def smileiPoints (d : PmdDump K) (modes : List String) (key : String) (axis : AxisKey) : Res (Points K) := do
  let axid ← axesidentify axis
  if key ∈ modes then
    let r ← orKeyError (d (key ++ "_mode_0"))
    let s ← smileiShape r.shape
    pyGet s ((axid / 90 : ℕ) : ℤ)
  else PmdDump.gridpoints d key axis

/-- `SmileiReader`. -/
def smileiReader (d : PmdDump K) (modes : List String) : Reader K where
  gridoffset := smileiOffset d modes
  gridspacing := smileiSpacing d modes
  gridpoints := smileiPoints d modes
  simgridkeys := ["Ex", "Ey", "Ez", "Er", "El", "Et", "Bx", "By", "Bz", "Br", "Bl", "Bt",
                  "Jx", "Jy", "Jz", "Jr", "Jl", "Jt", "Rho"]

/-! ### The dummy reader -/

/-- The table in `gridnode`, and in `grid` with one point less. `dummy.py:148-150, 168-170`. -/
def dummyTable : ℕ → Res (List (ℤ × ℤ × ℕ))
  | 1 => .ok [(-2, 10, 600)]
  | 2 => .ok [(-2, 10, 300), (-5, 5, 400)]
  | 3 => .ok [(-2, 10, 100), (-5, 5, 80), (-4, 4, 60)]
  | _ => .error .keyError

/-- The arguments of `linspace`. `dummy.py:151-153, 171-173`. -/
def dummyArgs (dims : ℕ) (axis : AxisKey) : Res (ℤ × ℤ × ℕ) := do
  let axid ← axesidentify axis
  if axid ≥ dims then throw .keyError
  let t ← dummyTable dims
  pyGet t axid

/-- `gridnode`. `dummy.py:137-155`. -/
def dummyNode (dims : ℕ) (axis : AxisKey) : Res (List K) := do
  let a ← dummyArgs dims axis
  return linspace a.1 a.2.1 (a.2.2 + 1)

/-- `grid`. `dummy.py:157-175`. -/
def dummyGrid (dims : ℕ) (axis : AxisKey) : Res (List K) := do
  let a ← dummyArgs dims axis
  return linspace a.1 a.2.1 a.2.2

/-- `simextent`. `dummy.py:133-135`. -/
def dummyExtent (dims : ℕ) (axis : AxisKey) : Res (K × K) := do
  let g ← dummyGrid dims axis
  return (← pyGet g 0, ← pyGet g (-1))

/-- `simgridpoints` returns the list of points. `dummy.py:130-131`. -/
def dummySimgridpoints (dims : ℕ) (axis : AxisKey) : Res (List K) := dummyGrid dims axis

/-! ### Fields -/

/-- What `getaxisobj` returns: an axis, or a plain array. -/
inductive AxisObj (K : Type) where
  | axis (ax : Axis K)
  | array (l : List K)

/-- `len(axisobj)`. -/
def AxisObj.len : AxisObj K → ℕ
  | .axis ax => ax.len
  | .array l => l.length

/-- The keyword arguments used in `getaxisobj`: the number of angles and the grids given instead of those
of the dump. -/
structure GridArgs (K : Type) where
  ntheta : Option ℤ := none
  given : String → Option (List K) := fun _ => none

/-- The name of an axis. `_field_calc.py:76`. -/
def axisName (axid : ℕ) : Res String :=
  match axid with
  | 0 => .ok "x" | 1 => .ok "y" | 2 => .ok "z" | 90 => .ok "r" | 91 => .ok "theta"
  | _ => .error .keyError

/-- `np.linspace(a, b, m, endpoint=False)`. -/
def linspaceOpen (a b : K) (m : ℤ) : Res (List K) :=
  if m < 0 then .error .valueError
  else .ok ((List.range m.toNat).map fun (i : ℕ) => a + (i : K) * ((b - a) / (m : K)))

/-- `getaxisobj`; `node` is the method `gridnode`. `_field_calc.py:69-87`. -/
def getaxisobj (spl : Splines K) (twoPi : K) (node : String → AxisKey → Res (List K)) (gridkey : String)
    (axis : AxisKey) (kw : GridArgs K) : Res (AxisObj K) := do
  let axid ← axesidentify axis
  let name ← axisName axid
  match kw.ntheta, decide (name = "theta") with
  | some m, true => do return .array (← linspaceOpen 0 twoPi m)
  | _, _ => match kw.given name with
    | some g => do return .axis (← mkAxis spl { name := name, unit := "m", grid := some g })
    | none => do
      let nodes ← node gridkey axis
      return .axis (← mkAxis spl { name := name, unit := "m", gridNode := some nodes })

/-- A field as created by a reader, with the objects stored as axes. -/
structure ReadField (K V : Type) where
  name : String
  matrix : Arr V
  axes : List (AxisObj K)

variable {V : Type}

/-- `setaxisobj`. `datahandling.py:914-926`. -/
def ReadField.setaxisobj (f : ReadField K V) (axis : AxisKey) (ax : AxisObj K) : Res (ReadField K V) := do
  let axid ← axesidentify axis
  let n ← pyGet f.matrix.shape ((axid % 90 : ℕ) : ℤ)
  if ax.len ≠ n then throw .valueError
  let axes ← pySet f.axes ((axid % 90 : ℕ) : ℤ) ax
  return { f with axes := axes }

/-- `dimensions`. `datahandling.py:979-991`. -/
def ReadField.dims (f : ReadField K V) : ℤ := if 0 ∈ f.matrix.shape then -1 else f.matrix.shape.length

/-- `setgridtofield`, `order` is what `_defaultaxisorder` returns. `_field_calc.py:92-101`. -/
def ReadField.setgrid (spl : Splines K) (twoPi : K) (node : String → AxisKey → Res (List K))
    (order : AxisKey × AxisKey × AxisKey) (f : ReadField K V) (gridkey : String) (kw : GridArgs K) :
    Res (ReadField K V) := do
  let f ← f.setaxisobj order.1 (← getaxisobj spl twoPi node gridkey order.1 kw)
  let f ← if f.dims > 1 then do
      f.setaxisobj order.2.1 (← getaxisobj spl twoPi node gridkey order.2.1 kw)
    else pure f
  if f.dims > 2 then do
    f.setaxisobj order.2.2 (← getaxisobj spl twoPi node gridkey order.2.2 kw)
  else pure f

/-- `np.squeeze`. -/
def Arr.squeeze (a : Arr V) : Arr V := a.pick (a.shape.map fun n => if n = 1 then .one 0 else .many (List.range n))

/-- `_createfieldfromdata` and the name given in `createfieldfromkey`; `Field(data)` removes the dimensions of
length one. `_field_calc.py:51-67`. -/
def createField (spl : Splines K) (twoPi : K) (node : String → AxisKey → Res (List K))
    (order : AxisKey × AxisKey × AxisKey) (data : Arr V) (name gridkey : String) (kw : GridArgs K) :
    Res (ReadField K V) := do
  let f ← mkFieldDefault spl (Arr.squeeze data)
  (⟨name, f.matrix, f.axes.map .axis⟩ : ReadField K V).setgrid spl twoPi node order gridkey kw

/-- `_defaultaxisorder`. `_field_calc.py:89-90`. -/
def defaultOrder : AxisKey × AxisKey × AxisKey := (.str "x", .str "y", .str "z")

/-- `_defaultaxisorder` of `FbpicReader`. `openPMDh5.py:320-321`. -/
def fbpicOrder : AxisKey × AxisKey × AxisKey := (.str "r", .str "theta", .str "z")

end Postpic.Readers
