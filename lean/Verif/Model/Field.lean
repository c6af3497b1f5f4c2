import Mathlib.Algebra.Module.Defs
import Mathlib.Algebra.BigOperators.Group.List.Basic
import Mathlib.Data.List.Sort
import Mathlib.Algebra.Order.Floor.Defs
import Mathlib.Algebra.Order.Floor.Ring
import Verif.Py.NdArray
import Verif.Model.Axis

/-!
# Model of `Field`

`postpic/datahandling.py:466-2346` without Fourier transforms (`Model/Fourier.lean`) and without
interpolation. The values of a field are elements of a `K`-module `V` (real or complex numbers);
coordinates are elements of the ordered field `K`.

`copy.copy(self)` makes copies of all lists (`datahandling.py:636-655`), so that operations which
modify the copy are modelled as functions returning a new field. Sharing of lists is modelled
separately in `Model/FieldHeap.lean`.
-/

set_option autoImplicit false

namespace Postpic.Fields

open Postpic Postpic.Axes

/-- A field: data, axes, for each dimension the transform state and the stored origin. A transform
state can become `None` through `atleast_nd`. `datahandling.py:561-612`. -/
structure Field (K V : Type) where
  name : String
  unit : String
  matrix : Arr V
  axes : List (Axis K)
  ats : List (Option Bool)
  tao : List (Option K)

variable {K V : Type} [_root_.Field K] [LinearOrder K]

/-- `shape`. `datahandling.py:956-958`. -/
def Field.shape (f : Field K V) : List ℕ := f.matrix.shape

/-- `dimensions`: -1 for arrays without data. `datahandling.py:979-991`. -/
def Field.dims (f : Field K V) : ℤ := if 0 ∈ f.shape then -1 else f.shape.length

/-- The check in `setaxisobj(i, ax)` for an integer `i`: `axesidentify` knows the integers 0, 1
and 2 (90 and 91 mean 0 and 1; they are not modelled). `datahandling.py:914-926`,
`helper.py:81-86`. -/
def checkAxisObj (shape : List ℕ) (i : ℕ) (ax : Axis K) : Res Unit :=
  if 2 < i then .error .keyError
  else match shape[i]? with
    | none => .error .indexError
    | some n => if ax.len = n then .ok () else .error .valueError

/-- The loop over the given axes in the constructor. `datahandling.py:580-581`. -/
def checkAxes (shape : List ℕ) : ℕ → List (Axis K) → Res Unit
  | _, [] => .ok ()
  | i, ax :: axs => do
    checkAxisObj shape i ax
    checkAxes shape (i + 1) axs

/-- `Field(matrix, name, unit, axes=..., axes_transform_state=..., transformed_axes_origins=...)`.
`datahandling.py:561-612`. -/
def mkField (m : Arr V) (name unit : String) (axes : List (Axis K)) (ats : List (Option Bool))
    (tao : List (Option K)) : Res (Field K V) :=
  if axes.length < m.shape.length then .error .valueError else do
    checkAxes m.shape 0 axes
    return ⟨name, unit, m, axes, ats, tao⟩

/-- The axes added for a matrix without given axes: `(0, 1)` for at most three dimensions, none if
there is no data. `datahandling.py:583-594`. -/
def defaultAxes (spl : Splines K) (shape : List ℕ) : Res (List (Axis K)) :=
  let names := if 0 ∈ shape then [] else ["x", "y", "z"].take shape.length
  (names.zip shape).mapM fun p =>
    mkAxis spl { name := p.1, extent := some (0, 1), n := some (p.2 : ℤ) }

/-- `Field(matrix)`; `shape` is the shape after `np.squeeze`. `datahandling.py:561-612`. -/
def mkFieldDefault (spl : Splines K) (m : Arr V) : Res (Field K V) := do
  let axes ← defaultAxes spl m.shape
  return ⟨"", "", m, axes, m.shape.map fun _ => some false, m.shape.map fun _ => none⟩

/-! ### Arithmetic -/

/-- What is collected per dimension: axis, transform state, stored origin. -/
abbrev Meta (K : Type) := Axis K × Option Bool × Option K

/-- The three lists side by side. -/
def Field.metas (f : Field K V) : List (Meta K) :=
  List.zip f.axes (List.zip f.ats f.tao)

/-- The loop over the reversed lists for two fields. `datahandling.py:698-734`. -/
def binaryMetaRev : List (Meta K) → List (Meta K) → Res (List (Meta K))
  | [], l => .ok l
  | l, [] => .ok l
  | a :: l, b :: m => do
    let x ← if a.1.len = b.1.len then
        (if b.2.2.isNone then pure (a.1, a.2.1, a.2.2) else pure (a.1, b.2.1, b.2.2) : Res (Meta K))
      else if a.1.len = 1 then pure b
      else if b.1.len = 1 then pure a
      else throw .valueError
    let r ← binaryMetaRev l m
    return x :: r

/-- `field op field`. `datahandling.py:658-737, 779-785, 823-852`. -/
def Field.binary (g : V → V → V) (f h : Field K V) : Res (Field K V) := do
  let m ← binaryMetaRev f.metas.reverse h.metas.reverse
  let r ← Arr.binary g f.matrix h.matrix
  let m := m.reverse
  mkField r f.name f.unit (m.map (·.1)) (m.map (·.2.1)) (m.map (·.2.2))

/-- `field op number`. `datahandling.py:663-665`. -/
def Field.binaryNumber (g : V → V → V) (f : Field K V) (c : V) : Res (Field K V) :=
  mkField ⟨f.shape, fun idx => g (f.matrix.at' idx) c⟩ f.name f.unit f.axes f.ats f.tao

/-- `field op array`: the array has `None` in place of each axis. If the array has more dimensions
than the field, `None` ends up in the list of axes and `len(None)` raises a TypeError in the
constructor. `datahandling.py:673-677, 700-709`. -/
def Field.binaryArray (g : V → V → V) (f : Field K V) (b : Arr V) : Res (Field K V) := do
  let r ← Arr.binary g f.matrix b
  if f.axes.length < b.shape.length then throw .typeError
  mkField r f.name f.unit f.axes f.ats f.tao

/-! ### Indexing -/

/-- An index for one dimension: an integer, a slice of integers with step None, 1 or -1, a
coordinate, a range of coordinates. -/
inductive Key (K : Type) where
  | int (i : ℤ)
  | slice (s : Slice)
  | coord (v : K)
  | range (a b : Option K)

/-- A normalised index. -/
inductive NKey where
  | int (i : ℤ)
  | slice (s : Slice)

/-- `_normalize_slice`. `datahandling.py:396-426`. -/
def normKey (ax : Axis K) : Key K → Res NKey
  | .int i => .ok (.int i)
  | .slice s => .ok (.slice s)
  | .range a b => do return .slice (← ax.extentToSlice a b)
  | .coord v =>
    if !ax.insideDomain v then .error .indexError
    else do return .int (← ax.findNearestIndex v)

/-- `ax[key]` for a normalised index: a new axis, or none if the dimension is removed; together
with the positions. `datahandling.py:435-454, 2325-2333`. -/
def pickAxis (spl : Splines K) (ax : Axis K) : NKey → Res (Option (Axis K) × Pick)
  | .int i => match pyIdx ax.len i with
    | some k => .ok (none, .one k)
    | none => .error .indexError
  | .slice s => do
    let ax' ← ax.getSlice spl s
    return (some ax', .many (s.apply (List.range ax.len)))

/-- `field[key]`. `datahandling.py:2308-2341`. -/
def Field.getitem (spl : Splines K) (f : Field K V) (key : List (Key K)) : Res (Field K V) := do
  if (key.length : ℤ) ≠ f.dims then throw .indexError
  let keys ← (f.axes.zip key).mapM fun p => normKey p.1 p.2
  let picks ← (f.axes.zip keys).mapM fun p => pickAxis spl p.1 p.2
  let sel := picks.map fun p => p.1.isNone
  let m := f.matrix.pick (picks.map (·.2))
  let newaxes := picks.filterMap (·.1)
  checkAxes m.shape 0 newaxes
  return { f with matrix := m, axes := newaxes, ats := keep sel f.ats, tao := keep sel f.tao }

/-- `squeeze()`. `datahandling.py:1560-1587`; the argument `axis` is not modelled (it raises a
NameError). -/
def Field.squeeze (spl : Splines K) (f : Field K V) : Res (Field K V) := do
  let key := f.axes.map fun ax => if ax.len = 1 then (Key.int 0 : Key K) else .slice ⟨none, none, false⟩
  let ret ← f.getitem spl key
  if ret.axes.map Axis.len ≠ ret.shape then throw .assertionError
  return ret

/-- `_transform_state()`. `datahandling.py:1870-1889`. -/
def Field.transformState (f : Field K V) : Option Bool :=
  if f.ats.all (· == some true) then some true
  else if f.ats.all (· == some false) then some false else none

/-- `atleast_nd(n)`. `datahandling.py:1589-1607`. -/
def Field.atleastNd (spl : Splines K) (f : Field K V) (n : ℤ) : Res (Field K V) :=
  if f.dims ≥ n then .ok f else do
    let ax ← mkAxis spl { gridNode := some [-(1 / 2), 1 / 2] }
    let k := (n - f.dims).toNat
    return { f with
      matrix := ⟨f.shape ++ List.replicate k 1, fun idx => f.matrix.at' (idx.take f.shape.length)⟩
      axes := f.axes ++ List.replicate k ax
      tao := f.tao ++ List.replicate k none
      ats := f.ats ++ List.replicate k f.transformState }

/-! ### Permutations, flips, rotations -/

/-- The list `axes` as numbers of dimensions, if it is a permutation of them. -/
def normPerm (n : ℕ) (axes : List ℤ) : Res (List ℕ) := do
  let p ← axes.mapM fun i => axisIdx n i
  if p.Nodup ∧ p.length = n then return p else throw .valueError

/-- `transpose(*axes)`; `none` stands for no argument. Transform states and stored origins are not
permuted. `datahandling.py:1609-1629`. -/
def Field.transpose (f : Field K V) (axes : Option (List ℤ)) : Res (Field K V) := do
  let axes := axes.getD ((List.range f.dims.toNat).map Int.ofNat).reverse
  if (axes.length : ℤ) ≠ f.dims then throw .valueError
  let newaxes ← axes.mapM fun i => pyGet f.axes i
  let p ← normPerm f.shape.length axes
  return { f with axes := newaxes, matrix := f.matrix.transpose p }

/-- `transpose(l)` with the list itself as the only argument: for one dimension the list is taken
for the number of an axis. `datahandling.py:1616-1621`. -/
def Field.transposeList (f : Field K V) (l : List ℤ) : Res (Field K V) :=
  if f.dims = 1 then .error .typeError else f.transpose (some l)

/-- `swapaxes(axis1, axis2)`. `datahandling.py:1639-1646`. -/
def Field.swapaxes (f : Field K V) (a b : ℤ) : Res (Field K V) := do
  let l := (List.range f.dims.toNat).map Int.ofNat
  let l ← pySet l a b
  let l ← pySet l b a
  f.transpose (some l)

/-- `flip(axis)`. `datahandling.py:1665-1676`. `np.flip` is taken from its documentation (recent
versions of numpy store a field in place of the array; its values are the same). -/
def Field.flip (spl : Splines K) (f : Field K V) (axis : ℤ) : Res (Field K V) := do
  let k ← axisIdx f.shape.length axis
  let ax ← pyGet f.axes axis
  let ax' ← ax.reversed spl
  let axes ← pySet f.axes axis ax'
  return { f with matrix := f.matrix.flip k, axes := axes }

/-- `rot90(k, axes)`. `datahandling.py:1678-1709`. -/
def Field.rot90 (spl : Splines K) (f : Field K V) (k : ℤ) (a b : ℤ) : Res (Field K V) := do
  let n := (f.shape.length : ℤ)
  if a = b then throw .valueError
  if a ≥ n ∨ a < -n ∨ b ≥ n ∨ b < -n then throw .valueError
  let k := k % 4
  if k = 0 then return f
  if k = 2 then return ← (← f.flip spl a).flip spl b
  let l := (List.range f.shape.length).map Int.ofNat
  let la ← pyGet l a
  let lb ← pyGet l b
  let l ← pySet l a lb
  let l ← pySet l b la
  if k = 1 then (← f.flip spl b).transpose (some l)
  else (← f.transpose (some l)).flip spl b

/-- `ensure_positive_axes()`: `isreversed` is a property, calling its value raises a TypeError.
`datahandling.py:1711-1720`. -/
def Field.ensurePositiveAxes (f : Field K V) : Res (Field K V) :=
  if f.axes = [] then .ok f else .error .typeError

/-! ### Reductions -/

/-- The dimensions numpy reduces: `none` for all. -/
def normAxes (n : ℕ) : Option (List ℤ) → Res (List Bool)
  | none => .ok (List.replicate n true)
  | some l => do
    let p ← l.mapM fun i => axisIdx n i
    if p.Nodup then return (List.range n).map fun d => decide (d ∈ p) else throw .valueError

/-- `range(self.dimensions)`. -/
def Field.rangeDims (f : Field K V) : List ℤ := (List.range f.dims.toNat).map Int.ofNat

/-- Removing entries for the given axes, the largest number first. `datahandling.py:491-494`. -/
def delAll {α : Type} (l : List α) : List ℤ → Res (List α)
  | [] => .ok l
  | i :: is => do delAll (← pyDel l i) is

/-- `reversed(sorted(axes))`. -/
def sortDesc (l : List ℤ) : List ℤ := (l.insertionSort (· ≤ ·)).reverse

/-- Replacing the reduced axes by axes with one point. `datahandling.py:488-489`. -/
def shrinkAxes (spl : Splines K) (axes : List (Axis K)) : List ℤ → Res (List (Axis K))
  | [] => .ok axes
  | i :: is => do
    let ax ← pyGet axes i
    let ax' ← mkAxis spl { name := ax.name, unit := ax.unit, extent := some ax.extent, n := some 1 }
    shrinkAxes spl (← pySet axes i ax') is

/-- `field.<method>(axis, keepdims)`, where `red` is the numpy method for a list of values. The
argument `out` is modelled in `ReduceOut`. `datahandling.py:466-526`. -/
def Field.reduce (spl : Splines K) (red : List V → V) (f : Field K V) (axis : Option (List ℤ))
    (keepdims : Bool) : Res (Field K V) := do
  let iter := axis.getD f.rangeDims
  if keepdims then
    let axes ← shrinkAxes spl f.axes iter
    let sel ← normAxes f.shape.length axis
    mkField (f.matrix.reduceKeep red sel) f.name f.unit axes f.ats f.tao
  else
    let axes ← delAll f.axes (sortDesc iter)
    let tao ← delAll f.tao (sortDesc iter)
    let ats ← delAll f.ats (sortDesc iter)
    let sel ← normAxes f.shape.length axis
    mkField (f.matrix.reduce red sel) f.name f.unit axes ats tao

/-! ### Integration -/

/-- `grid_node[1:] - grid_node[:-1]`. -/
def Axis.boxes (ax : Axis K) : List K := List.zipWith (fun b a => b - a) ax.gridNode.tail ax.gridNode

section
variable [AddCommMonoid V] [Module K V]

/-- `ret * np.reshape(box_sizes, shape)`. The shape has a single entry different from 1.
`datahandling.py:1733-1737`. Boxes whose number differs from the length of the data along this
dimension are refused (this does not occur for fields whose axes describe the data). -/
def Field.mulBoxes (f : Field K V) (orig : Field K V) (axis : ℤ) : Res (Field K V) := do
  let ax ← pyGet orig.axes axis
  match pyIdx orig.dims.toNat axis with
  | none => throw .indexError
  | some k =>
    if f.shape[k]? ≠ some (Axis.boxes ax).length then throw .valueError
    mkField ⟨f.shape, fun idx => (Axis.boxes ax).getD (idx.getD k 0) 0 • f.matrix.at' idx⟩
      f.name f.unit f.axes f.ats f.tao

/-- The loop of `_integrate_constant`. -/
def mulAllBoxes (orig : Field K V) (f : Field K V) : List ℤ → Res (Field K V)
  | [] => .ok f
  | i :: is => do mulAllBoxes orig (← f.mulBoxes orig i) is

/-- `_integrate_constant(axes)`. `datahandling.py:1722-1741`. -/
def Field.integrateConstant (spl : Splines K) (f : Field K V) (axes : List ℤ) : Res (Field K V) := do
  let axes := axes.dedup.insertionSort (· ≤ ·)
  let ret ← mulAllBoxes f f axes.reverse
  ret.reduce spl List.sum (some axes) false

/-- One round of the loop of `_integrate_fast`. `datahandling.py:1769-1785`. -/
def Field.integrateStep (f : Field K V) (axis : ℤ) : Res (Field K V) := do
  let ax ← pyGet f.axes axis
  match pyIdx f.dims.toNat axis with
  | none => throw .indexError
  | some k =>
    if f.shape[k]? ≠ some (Axis.boxes ax).length then throw .valueError
    let axes ← pyDel f.axes axis
    let ats ← pyDel f.ats axis
    let tao ← pyDel f.tao axis
    return { f with
      matrix := ⟨f.shape.eraseIdx k, fun idx => ((List.range (Axis.boxes ax).length).map fun j =>
        (Axis.boxes ax).getD j 0 • f.matrix.at' (idx.insertIdx k j)).sum⟩
      axes := axes, ats := ats, tao := tao }

/-- The loop of `_integrate_fast`; the list is given in the order of processing.
`datahandling.py:1767-1787`. -/
def fastLoop (f : Field K V) : List ℤ → Res (Field K V)
  | [] => .ok f
  | a :: as => do
    fastLoop (← f.integrateStep a) (as.map fun i => if a < i then i - 1 else i)
  termination_by l => l.length
  decreasing_by simp

/-- `_integrate_fast(axes)`. The axis with most points comes first. (Axes of the same length are
in the order of a python set; the theorems do not depend on the order.)
`datahandling.py:1753-1789`. -/
def Field.integrateFast (f : Field K V) (axes : List ℤ) : Res (Field K V) := do
  let keys ← axes.dedup.mapM fun i => do return (← pyGet f.shape i, i)
  fastLoop f ((keys.insertionSort (fun p q => p.1 ≤ q.1)).reverse.map (·.2))

/-! ### Resolution -/

/-- `half_resolution(axis)`. `datahandling.py:1171-1202`. -/
def Field.halfResolution (spl : Splines K) (f : Field K V) (axis : ℕ) : Res (Field K V) :=
  if 2 < axis then .error .keyError
  else match f.shape[axis]?, f.axes[axis]? with
    | some n, some ax => do
      let ax' ← ax.halfResolution spl
      let m : Arr V := ⟨f.shape.set axis (n / 2), fun idx =>
        (1 / 2 : K) • (f.matrix.at' (idx.modify axis fun k => 2 * k) +
          f.matrix.at' (idx.modify axis fun k => 2 * k + 1))⟩
      checkAxisObj m.shape axis ax'
      return { f with matrix := m, axes := f.axes.set axis ax', tao := f.tao.set axis none }
    | _, _ => .error .indexError

/-- The inner loop of `autoreduce` with at most `fuel` rounds; `none` if these do not suffice. -/
def halveLoop (spl : Splines K) (maxlen : ℤ) (i : ℕ) : ℕ → Field K V → Option (Res (Field K V))
  | 0, _ => none
  | fuel + 1, f => match f.axes[i]? with
    | none => some (.error .indexError)
    | some ax =>
      if maxlen < ax.len then match f.halfResolution spl i with
        | .ok f' => halveLoop spl maxlen i fuel f'
        | .error e => some (.error e)
      else some (.ok f)

/-- The outer loop of `autoreduce`. -/
def reduceLoop (spl : Splines K) (maxlen : ℤ) (fuel : ℕ) :
    List ℕ → Field K V → Option (Res (Field K V))
  | [], f => some (.ok f)
  | i :: is, f => match halveLoop spl maxlen i fuel f with
    | some (.ok f') => reduceLoop spl maxlen fuel is f'
    | r => r

/-- `autoreduce(maxlen)`. `datahandling.py:1460-1470`. -/
def Field.autoreduce (spl : Splines K) (maxlen : ℤ) (fuel : ℕ) (f : Field K V) :
    Option (Res (Field K V)) :=
  reduceLoop spl maxlen fuel (List.range f.axes.length) f

end

/-! ### Padding -/

/-- A pad width: a number of cells or a length. -/
inductive PadWidth (K : Type) where
  | cells (n : ℤ)
  | length (l : K)

/-- The number of cells. `datahandling.py:1145-1149`. -/
def PadWidth.num [FloorRing K] (dx : K) : PadWidth K → ℤ
  | .cells n => n
  | .length l => ⌈l / dx⌉

/-- The loop over the dimensions: new axis (or the old one, when nothing is padded), new stored
origin and the pad widths. `datahandling.py:1132-1161, 1165-1167`. -/
def padAxis [FloorRing K] (spl : Splines K) (ax : Axis K) (o : Option K)
    (p : PadWidth K × PadWidth K) : Res (Axis K × Option K × (ℤ × ℤ)) := do
  let dx ← ax.spacing
  let p0 := p.1.num dx
  let p1 := p.2.num dx
  if p0 + p1 = 0 then return (ax, o, (p0, p1))
  let ax' ← mkAxis spl { name := ax.name, unit := ax.unit
                         extent := some (ax.extent.1 - p0 * dx, ax.extent.2 + p1 * dx)
                         n := some ((ax.gridNode.length : ℤ) - 1 + p0 + p1) }
  return (ax', none, (p0, p1))

/-- `pad(pad_width, 'constant', constant_values=c)`, with a pair of widths for each dimension.
`datahandling.py:1102-1169`. The abbreviated forms of `pad_width` are not modelled. The check
`if not self.islinear()` tests a list and is therefore only effective without any axes; an axis
that is not linear makes `axis.spacing` fail. -/
def Field.pad [FloorRing K] (spl : Splines K) (f : Field K V) (w : List (PadWidth K × PadWidth K))
    (c : V) : Res (Field K V) := do
  if f.axes = [] then throw .valueError
  if (w.length : ℤ) ≠ f.dims then throw .valueError
  let r ← ((f.axes.zip f.tao).zip w).mapM fun q => padAxis spl q.1.1 q.1.2 q.2
  if r.any fun q => decide (q.2.2.1 < 0 ∨ q.2.2.2 < 0) then throw .valueError
  return { f with
    matrix := f.matrix.pad (r.map fun q => (q.2.2.1.toNat, q.2.2.2.toNat)) c
    axes := r.map (·.1), tao := r.map (·.2.1) }

/-! ### Derivative, replacing data -/

/-- `_derivative_stagger(axis)`. `datahandling.py:1838-1853`. -/
def Field.derivativeStagger [AddCommGroup V] [Module K V] (spl : Splines K) (f : Field K V)
    (axis : ℤ) : Res (Field K V) := do
  let ax ← pyGet f.axes axis
  if !ax.isLinear then throw .valueError
  let ax' ← mkAxis spl { name := ax.name, unit := ax.unit, grid := some ax.gridNode.tail.dropLast }
  let axes ← pySet f.axes axis ax'
  match pyIdx f.dims.toNat axis with
  | none => throw .indexError
  | some k =>
    let dx ← ax.spacing
    let m : Arr V := ⟨f.shape.modify k (· - 1), fun idx =>
      dx⁻¹ • (f.matrix.at' (idx.modify k (· + 1)) - f.matrix.at' idx)⟩
    mkField m (f.name ++ "'") f.unit axes (m.shape.map fun _ => some false)
      (m.shape.map fun _ => none)

/-- `replace_data(other)`. `datahandling.py:950-954, 1057-1060`. -/
def Field.replaceData {W : Type} (f : Field K V) (m : Arr W) : Res (Field K W) :=
  if m.shape ≠ f.shape then .error .valueError
  else .ok ⟨f.name, f.unit, m, f.axes, f.ats, f.tao⟩

end Postpic.Fields
