import Verif.Model.FieldAssign

/-!
# Arrays as indices of a field

`field[key]` and `field[key] = number` where `key` is an array of truth values or of numbers, or a list of numbers.
-/

set_option autoImplicit false

namespace Postpic.Fields

open Postpic Postpic.Axes

/-- A key which contains an array. -/
inductive ArrKey where
  /-- A field with truth values (which is not `Iterable`, such as `field > 0`), or a tuple of one array of truth values. -/
  | maskOne (m : Arr Bool)
  /-- An array of truth values. -/
  | mask (m : Arr Bool)
  /-- A tuple of one array (or list) of numbers. -/
  | numsOne (l : List ℤ)
  /-- An array with one dimension, or a list, of numbers. -/
  | nums (l : List ℤ)

/-- The positions of `True` along a row of truth values; numpy replaces a row by these. -/
def truePositions (n : ℕ) (row : ℕ → Bool) : List ℕ := (List.range n).filter row

/-- The length to which numpy broadcasts lists with these lengths. -/
def commonLength (lens : List ℕ) : Res ℕ :=
  let l := (lens.find? (· ≠ 1)).getD 1
  if lens.all fun k => decide (k = 1 ∨ k = l) then .ok l else .error .indexError

/-- Several lists of positions as index: the elements which are selected. -/
def fancy (lists : List (List ℕ)) : Res (List (List ℕ)) := do
  let l ← commonLength (lists.map List.length)
  return (List.range l).map fun i => lists.map fun p => p.getD (if p.length = 1 then 0 else i) 0

/-- A number as index of a dimension of length `n`. -/
def numIndex (n : ℕ) (i : ℤ) : Res ℕ :=
  match pyIdx n i with
  | some k => .ok k
  | none => .error .indexError

/-- Which elements of the array are selected by `matrix[_normalize_slices(key)]`. An array of truth values as key is taken as
the sequence of its parts along the first dimension, as many as the field has dimensions: single truth values select all or nothing,
rows are replaced by positions, other parts are too many indices. `datahandling.py:2308-2316, 2343-2345`. -/
def Field.selected {K V : Type} (f : Field K V) : ArrKey → Res (List ℕ → Bool)
  | .maskOne m =>
    if f.dims ≠ 1 then .error .indexError
    else if m.shape ≠ f.shape then .error .indexError
    else .ok m.at'
  | .mask m =>
    match m.shape with
    | [] => .error .typeError
    | n :: rest =>
      if (n : ℤ) ≠ f.dims then .error .indexError
      else if n = 0 then .ok fun _ => true
      else match rest with
        | [] => .ok fun _ => (List.range n).all fun i => m.at' [i]
        | [k] =>
          if f.shape.any fun s => decide (s ≠ k) then .error .indexError
          else do
            let l ← fancy ((List.range n).map fun i => truePositions k fun j => m.at' [i, j])
            return fun idx => decide (idx ∈ l)
        | _ => .error .indexError
  | .numsOne l =>
    if f.dims ≠ 1 then .error .indexError
    else do
      let ks ← l.mapM (numIndex (f.shape.headD 0))
      return fun idx => decide (∃ k ∈ ks, idx = [k])
  | .nums l =>
    if (l.length : ℤ) ≠ f.dims then .error .indexError
    else do
      let ks ← (f.shape.zip l).mapM fun p => numIndex p.1 p.2
      return fun idx => decide (idx = ks)

/-- `field[key] = v` for a number `v`. `datahandling.py:2343-2345`. -/
def Field.assignSelected {K V : Type} (f : Field K V) (key : ArrKey) (v : V) : Res (Field K V) := do
  let s ← f.selected key
  return { f with matrix := ⟨f.shape, fun idx => if s idx then v else f.matrix.at' idx⟩ }

/-- `field[mask]` for a mask which is a field, or in a tuple: `axis[mask]` is not an `Axis`, so that the dimension counts as removed.
`datahandling.py:2318-2341`. -/
def Field.getMask {K V : Type} (f : Field K V) (m : Arr Bool) : Res (Field K V) := do
  let s ← f.selected (.maskOne m)
  let ks := truePositions (f.shape.headD 0) fun i => s [i]
  return { f with matrix := ⟨[ks.length], fun idx => f.matrix.at' [ks.getD (idx.getD 0 0) 0]⟩, axes := [], ats := [], tao := [] }

end Postpic.Fields
