import Verif.Model.Field
import Verif.Py.Range

/-!
# Model of `KeepDim`, of slices with steps and of assignments to parts of a field

`postpic/datahandling.py:96-98, 396-455, 2308-2345`. In `Model/Field.lean` an index is a number, a slice with step `None`, 1 or -1, a coordinate or a
range of coordinates. Here are also `KeepDim(index)`, all steps, slices which mix numbers and coordinates, and `field[key] = values`. Arrays of numbers or of
truth values as index are in `Model/FieldMask.lean`; `Ellipsis` and `None` are not modelled.
-/

set_option autoImplicit false

namespace Postpic.Fields

open Postpic Postpic.Axes

/-- A limit of a slice: missing, an integer or a float. -/
inductive Bound (K : Type) where
  | missing
  | num (i : ℤ)
  | coord (v : K)

/-- An index of one dimension: an integer, a float or a slice. -/
inductive Index (K : Type) where
  | int (i : ℤ)
  | coord (v : K)
  | slice (start stop : Bound K) (step : Option ℤ)

/-- An index, or `KeepDim(index)`. `datahandling.py:96-98`. -/
inductive Item (K : Type) where
  | plain (i : Index K)
  | keepDim (i : Index K)

/-- An index after `_normalize_slice`. -/
inductive NItem where
  | int (i : ℤ)
  | slice (start stop step : Option ℤ)
  deriving DecidableEq

section
variable {K V : Type} [_root_.Field K] [LinearOrder K]

/-- `is_non_integer_real_number`. `helper.py:423-427`. -/
def Bound.isCoord : Bound K → Bool
  | .coord _ => true
  | _ => false

/-- The number in `_extent_to_slice`. -/
def Bound.value : Bound K → Option K
  | .missing => none
  | .num i => some (i : K)
  | .coord v => some v

/-- The limit of a slice of integers. -/
def Bound.int : Bound K → Option ℤ
  | .num i => some i
  | _ => none

/-- The last lines of `_normalize_slice`. `datahandling.py:423-426`. -/
def keepInt (keepdim : Bool) (i : ℤ) : NItem := if keepdim then .slice (some i) (some (i + 1)) none else .int i

/-- `_normalize_slice` without the first lines. `datahandling.py:407-426`. -/
def normIndex (ax : Axis K) (keepdim : Bool) : Index K → Res NItem
  | .slice a b step =>
    if a.isCoord || b.isCoord then
      if step.isSome then .error .indexError
      else do
        let s ← ax.extentToSlice a.value b.value
        return .slice s.start s.stop (if s.backward then some (-1) else none)
    else .ok (.slice a.int b.int step)
  | .coord v =>
    if !ax.insideDomain v then .error .indexError
    else do return keepInt keepdim (← ax.findNearestIndex v)
  | .int i => .ok (keepInt keepdim i)

/-- `_normalize_slice`. `datahandling.py:396-426`. -/
def normItem (ax : Axis K) : Item K → Res NItem
  | .plain i => normIndex ax false i
  | .keepDim i => normIndex ax true i

/-- `ax[key]` for a normalised index: a new axis, or none if the dimension is removed; together with the positions.
`datahandling.py:435-454, 2325-2333`. -/
def itemAxis (spl : Splines K) (ax : Axis K) : NItem → Res (Option (Axis K) × Pick)
  | .int i => pickAxis spl ax (.int i)
  | .slice a b step =>
    if step = none ∨ step = some 1 ∨ step = some (-1) then pickAxis spl ax (.slice ⟨a, b, decide (step = some (-1))⟩)
    else .error .valueError

/-- `field[key]`. `datahandling.py:2308-2341`. -/
def Field.getitems (spl : Splines K) (f : Field K V) (key : List (Item K)) : Res (Field K V) := do
  if (key.length : ℤ) ≠ f.dims then throw .indexError
  let keys ← (f.axes.zip key).mapM fun p => normItem p.1 p.2
  let picks ← (f.axes.zip keys).mapM fun p => itemAxis spl p.1 p.2
  let sel := picks.map fun p => p.1.isNone
  let m := f.matrix.pick (picks.map (·.2))
  let newaxes := picks.filterMap (·.1)
  checkAxes m.shape 0 newaxes
  return { f with matrix := m, axes := newaxes, ats := keep sel f.ats, tao := keep sel f.tao }

end

/-- The positions numpy selects along a dimension of length `n`. -/
def NItem.pick (n : ℕ) : NItem → Res Pick
  | .int i => match pyIdx n i with
    | some k => .ok (.one k)
    | none => .error .indexError
  | .slice a b step => do
    let (i, j, s) ← sliceIndices n a b step
    return .many ((pyRange i j s).map Int.toNat)

/-- The index in the selected part which belongs to an index of the whole array, if it is selected. -/
def unpick : List Pick → List ℕ → Option (List ℕ)
  | [], [] => some []
  | .one k :: ps, i :: idx => if i = k then unpick ps idx else none
  | .many l :: ps, i :: idx => if i ∈ l then (unpick ps idx).map (l.idxOf i :: ·) else none
  | _, _ => none

/-- The number of leading dimensions of length one which numpy drops in an assignment to an array with `k` dimensions. -/
def surplusOnes (k : ℕ) : List ℕ → ℕ
  | [] => 0
  | n :: s => if k ≤ s.length ∧ n = 1 then surplusOnes k s + 1 else 0

/-- An array without its `m` first dimensions, which have the length one. -/
def Arr.dropOnes {V : Type} (a : Arr V) (m : ℕ) : Arr V := ⟨a.shape.drop m, fun idx => a.at' (List.replicate m 0 ++ idx)⟩

/-- `field[key] = other`: numpy broadcasts the values (a number is an array without dimensions; of a field `__array__` gives the array).
`datahandling.py:2343-2345`. -/
def Field.assign {K V : Type} [_root_.Field K] [LinearOrder K] (f : Field K V) (key : List (Item K)) (other : Arr V) : Res (Field K V) := do
  if (key.length : ℤ) ≠ f.dims then throw .indexError
  let keys ← (f.axes.zip key).mapM fun p => normItem p.1 p.2
  let picks ← (f.shape.zip keys).mapM fun p => p.2.pick p.1
  let o := Arr.dropOnes other (surplusOnes (pickShape picks).length other.shape)
  if bshape o.shape (pickShape picks) ≠ some (pickShape picks) then throw .valueError
  return { f with matrix := ⟨f.shape, fun idx =>
    match unpick picks idx with
    | some j => o.at' (bindex o.shape j)
    | none => f.matrix.at' idx⟩ }

end Postpic.Fields
