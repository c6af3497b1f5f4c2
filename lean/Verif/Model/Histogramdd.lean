import Verif.Model.Histogram

/-!
# Model of the argument handling of `histogramdd`

`postpic/particles/_routines.py:39-150`.

Simplifications: numbers are elements of `K`; keyword arguments other than the four known ones
(line 85-86) are not modelled; a `range` or `bins` argument of a foreign type is not modelled.
-/

set_option autoImplicit false

namespace Postpic.Histogram

open Postpic

variable {K : Type} [Field K] [LinearOrder K] [FloorRing K]

/-- The accepted forms of `data` (`_routines.py:50-55`): a 1D array or list of numbers, a sequence
of columns (which has no attribute `shape`), or a 2D numpy array (given by its rows) with `D`
columns. -/
inductive Data (K : Type*) where
  | scalars (l : List K)
  | seq (cols : List (List K))
  | array (rows : List (List K)) (D : ℕ)

/-- One end of the range, `None` for the default. -/
abbrev End (K : Type*) := Option K

/-- The accepted forms of `range`: missing, a pair for 1D, a sequence of pairs (each may be
`None`). -/
inductive RangeArg (K : Type*) where
  | none
  | pair (a b : End K)
  | many (l : List (Option (End K × End K)))

/-- The accepted forms of `bins`. -/
inductive BinsArg where
  | none
  | int (n : ℕ)
  | many (l : List ℕ)

/-- Histogram and edges. -/
inductive Hist (K : Type*) where
  | h1 (h : List K) (e : List K)
  | h2 (h : List (List K)) (e f : List K)
  | h3 (h : List (List (List K))) (e f g : List K)
  deriving DecidableEq

/-- `data[:, i]` of an array given by rows. -/
def column (rows : List (List K)) (i : ℕ) : List K := rows.map fun r => r.getD i 0

/-- The columns. `_routines.py:88-99`: a 2D array with more than 3 rows is a list of points;
any other array of 2 dimensions is iterated over its first axis, i.e. each *row* is taken for a
column. `data[0]` of empty data raises IndexError. -/
def columns : Data K → Res (List (List K))
  | .scalars [] => .error .indexError
  | .scalars l => .ok [l]
  | .seq [] => .error .indexError
  | .seq cols => .ok cols
  | .array rows D =>
    let data := if 3 < rows.length then (List.range D).map (column rows) else rows
    if data = [] then .error .indexError else .ok data

/-- `_routines.py:102-103`: `kwrange` after the upcast. A pair whose first entry is a number
becomes a sequence of one pair; a pair which starts with `None` stays what it is: a sequence of two
entries, none of which can be indexed (so that each access raises TypeError). -/
def rangeSeq : RangeArg K → Option (List (Option (End K × End K)))
  | .none => Option.none
  | .pair (some a) b => some [some (some a, b)]
  | .pair Option.none _ => some [Option.none, Option.none]
  | .many l => some l

/-- `np.min`, `np.max`; ValueError for empty data. -/
def npMin : List K → Res K
  | [] => .error .valueError
  | a :: l => .ok (l.foldl min a)

/-- `np.max`. -/
def npMax : List K → Res K
  | [] => .error .valueError
  | a :: l => .ok (l.foldl max a)

/-- The range used along axis `ax`. `_routines.py:120-132`: TypeErrors (no range given, `None`)
are caught and the default is filled in; an IndexError is not caught. -/
def rangeAt (rs : Option (List (Option (End K × End K)))) (ax : ℕ) (d : List K) : Res (K × K) :=
  match rs with
  | none => do return (← npMin d, ← npMax d)
  | some l => match l[ax]? with
    | none => .error .indexError
    | some none => do return (← npMin d, ← npMax d)
    | some (some (a, b)) => do
      let lo ← match a with | some x => .ok x | none => npMin d
      let hi ← match b with | some x => .ok x | none => npMax d
      return (lo, hi)

/-- The number of bins per axis. `_routines.py:104-110`. -/
def binsSeq (dim : ℕ) : BinsArg → List ℕ
  | .int n => List.replicate dim n
  | .many l => l
  | .none => match dim with
    | 1 => [800]
    | 2 => [500, 500]
    | _ => [200, 200, 200]

/-- `bins[i]`. -/
def binAt (l : List ℕ) (i : ℕ) : Res ℕ := match l[i]? with
  | some n => .ok n
  | none => .error .indexError

/-- `shape`: `None` is 2; an unknown shape reaches the end of the if chain of the Cython code with
`ret` still `None`, slicing which raises TypeError. -/
def shapeOf (code : Option ℕ) : Res Shape := match Shape.ofCode (code.getD 2) with
  | some s => .ok s
  | none => .error .typeError

/-- `histogramdd`. `_routines.py:39-150`. For 2D and 3D only, more than 3 columns are an error. -/
def histogramdd (spacing : K → K) (data : Data K) (range : RangeArg K) (bins : BinsArg)
    (weights : Option (List K)) (shape : Option ℕ) : Res (Hist K) := do
  let cols ← columns data
  let rs := rangeSeq range
  match cols with
  | [x] => do
    let r ← rangeAt rs 0 x
    let n ← binAt (binsSeq 1 bins) 0
    let s ← shapeOf shape
    let (h, e) ← histogram spacing s x r n weights
    return .h1 h e
  | [x, y] => do
    let rx ← rangeAt rs 0 x
    let ry ← rangeAt rs 1 y
    let nx ← binAt (binsSeq 2 bins) 0
    let ny ← binAt (binsSeq 2 bins) 1
    let s ← shapeOf shape
    let (h, e, f) ← histogram2d spacing s x y rx ry nx ny weights
    return .h2 h e f
  | [x, y, z] => do
    let rx ← rangeAt rs 0 x
    let ry ← rangeAt rs 1 y
    let rz ← rangeAt rs 2 z
    let nx ← binAt (binsSeq 3 bins) 0
    let ny ← binAt (binsSeq 3 bins) 1
    let nz ← binAt (binsSeq 3 bins) 2
    let s ← shapeOf shape
    let (h, e, f, g) ← histogram3d spacing s x y z rx ry rz nx ny nz weights
    return .h3 h e f g
  | _ => .error .valueError

end Postpic.Histogram
