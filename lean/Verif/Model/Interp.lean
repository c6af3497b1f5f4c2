import Mathlib.Algebra.Order.Floor.Ring
import Mathlib.Algebra.Order.Ring.Defs
import Mathlib.Data.List.MinMax
import Verif.Py.NdArray
import Verif.Py.Slice

/-!
# Parallel interpolation

Model of `map_coordinates_parallel` (`postpic/helper.py:208-323`) for real input. Coordinates and
values are exact numbers (no NaN), so that floor and ceil are those of the reals.

scipy's C routine `NI_GeometricTransform` (`scipy/ndimage/src/ni_interpolation.c`) is described by
`interp`: coordinates are first mapped into the array according to the mode; if this fails the
result is `cval`; otherwise the result is a sum over `order + 1` neighbours in each dimension, whose
numbers are mirrored at the borders. The weights are a function of the position between the
neighbours.

Python executes the chunks in a thread pool; the C routine releases the lock of the interpreter.
Each chunk is therefore a list of writes, and these lists can be interleaved arbitrarily.
-/

set_option autoImplicit false

namespace Postpic.Interp

open Postpic

/-- scipy's `mode`. -/
inductive Mode where
  | nearest | wrap | reflect | mirror | constant
  deriving DecidableEq, Repr

/-- `itertools.product(*lists)`. -/
def product {α : Type} : List (List α) → List (List α)
  | [] => [[]]
  | l :: ls => l.flatMap fun x => (product ls).map (x :: ·)

/-- The chunks of one axis: `chunkstarts`, `chunkends` and the slices. `helper.py:266-269`. -/
def axisChunks (chunklen n : ℕ) : Res (List (ℕ × ℕ)) := do
  let chunkstarts := (List.range ((n + chunklen - 1) / chunklen)).map (· * chunklen)
  let chunkends := chunkstarts.map (· + chunklen)
  let chunkends ← pySet chunkends (-1) n
  return chunkstarts.zip chunkends

/-- `list(itertools.product(*chunks))`. `helper.py:264-271`. -/
def chunks (chunklen : ℕ) (shape : List ℕ) : Res (List (List (ℕ × ℕ))) := do
  let l ← shape.mapM (axisChunks chunklen)
  return product l

/-- All indices of an array with the given shape, last dimension fastest. -/
def indices (shape : List ℕ) : List (List ℕ) := product (shape.map List.range)

section
variable {K : Type} [_root_.Field K] [LinearOrder K] [FloorRing K]

/-- C's conversion to an integer of a number which is not negative. -/
def trunc (x : K) : K := (⌊x⌋ : K)

/-- `map_coordinate` of scipy; `none` for a coordinate outside of the array. -/
def mapCoordinate (mode : Mode) (n : ℕ) (c : K) : Option K :=
  let len : K := n
  if c < 0 then
    match mode with
    | .constant => none
    | .nearest => some 0
    | .mirror =>
      if n ≤ 1 then some 0
      else
        let sz2 := 2 * len - 2
        let c := sz2 * trunc (-c / sz2) + c
        some (if c ≤ 1 - len then c + sz2 else -c)
    | .reflect =>
      if n ≤ 1 then some 0
      else
        let sz2 := 2 * len
        let c := if c < -sz2 then sz2 * trunc (-c / sz2) + c else c
        some (if c < -len then c + sz2 else -c - 1)
    | .wrap =>
      if n ≤ 1 then some 0
      else
        let sz := len - 1
        some (c + sz * (trunc (-c / sz) + 1))
  else if len - 1 < c then
    match mode with
    | .constant => none
    | .nearest => some (len - 1)
    | .mirror =>
      if n ≤ 1 then some 0
      else
        let sz2 := 2 * len - 2
        let c := c - sz2 * trunc (c / sz2)
        some (if len ≤ c then sz2 - c else c)
    | .reflect =>
      if n ≤ 1 then some 0
      else
        let sz2 := 2 * len
        let c := c - sz2 * trunc (c / sz2)
        some (if len ≤ c then sz2 - c - 1 else c)
    | .wrap =>
      if n ≤ 1 then some 0
      else
        let sz := len - 1
        some (c - sz * trunc (c / sz))
  else some c

/-- The number of a neighbour after mirroring at the borders of an array of length `n`. -/
def mirrorIndex (n : ℕ) (i : ℤ) : ℕ :=
  if n ≤ 1 then 0
  else
    let s2 : ℤ := 2 * n - 2
    if i < 0 then
      let i := s2 * (-i / s2) + i
      (if i ≤ 1 - n then i + s2 else -i).toNat
    else if (n : ℤ) ≤ i then
      let i := i - s2 * (i / s2)
      (if (n : ℤ) ≤ i then s2 - i else i).toNat
    else i.toNat

/-- The neighbour the weights refer to. -/
def centre (order : ℕ) (c : K) : ℤ := if order % 2 = 1 then ⌊c⌋ else ⌊c + 1 / 2⌋

/-- The sum over the neighbours in all dimensions; `weight order x k` is the weight of neighbour `k`
for a coordinate with distance `x` from the centre. -/
def stencil (weight : ℕ → K → ℕ → K) (order : ℕ) : List ℕ → List K → (List ℕ → K) → K
  | n :: shape, c :: cs, at' =>
    ((List.range (order + 1)).map fun k =>
      weight order (c - (centre order c : K)) k *
        stencil weight order shape cs fun idx =>
          at' (mirrorIndex n (centre order c - (order / 2 : ℕ) + k) :: idx)).sum
  | _, _, at' => at' []

/-- One sample of `NI_GeometricTransform`. Reading from an empty array is undefined behaviour. -/
def interp (weight : ℕ → K → ℕ → K) (order : ℕ) (mode : Mode) (cval : K) (a : Arr K) (cs : List K) :
    Res K :=
  match (List.zipWith (mapCoordinate mode) a.shape cs).mapM id with
  | none => .ok cval
  | some cs => if 0 ∈ a.shape then .error .undefinedBehaviour
    else .ok (stencil weight order a.shape cs a.at')

/-- `cmin` and `cmax` for the coordinates of a chunk. `helper.py:276-278`. -/
def region (n : ℕ) (c : List K) : Res (ℤ × ℤ) :=
  match c.min?, c.max? with
  | some lo, some hi => .ok (max 0 (⌊lo⌋ - 5), min n (⌈hi⌉ + 5))
  | _, _ => .error .valueError

/-- `filtered[tuple(filtered_region)]`. -/
def subArray (a : Arr K) (r : List (ℤ × ℤ)) : Arr K where
  shape := List.zipWith (fun n s => clampFwd n s.2 - clampFwd n s.1) a.shape r
  at' idx := a.at' (List.zipWith (fun (s : ℕ) i => s + i)
    (List.zipWith (fun n (s : ℤ × ℤ) => clampFwd n s.1) a.shape r) idx)

/-- A write to the output: the index and the value. -/
abbrev Write (K : Type) := List ℕ × K

/-- One chunk: the region of the input is cut out, the coordinates are shifted, and all samples of the
chunk are written. `helper.py:271-298`. -/
def chunkTask (weight : ℕ → K → ℕ → K) (order : ℕ) (mode : Mode) (cval : K) (filtered coordinates : Arr K)
    (chunk : List (ℕ × ℕ)) : Res (List (Write K)) := do
  let locals := indices (chunk.map fun s => s.2 - s.1)
  let out := fun (idx : List ℕ) => List.zipWith (fun (s : ℕ × ℕ) i => s.1 + i) chunk idx
  let r ← (List.range filtered.shape.length).mapM fun a =>
    region (filtered.shape.getD a 0) (locals.map fun idx => coordinates.at' (a :: out idx))
  let sub := subArray filtered r
  locals.mapM fun idx => do
    let cs := (List.range filtered.shape.length).map fun a =>
      coordinates.at' (a :: out idx) - ((r.getD a (0, 0)).1 : K)
    let v ← interp weight order mode cval sub cs
    return (out idx, v)

/-- The whole array as a single task. `helper.py:303`. -/
def wholeTask (weight : ℕ → K → ℕ → K) (order : ℕ) (mode : Mode) (cval : K) (filtered coordinates : Arr K)
    (shape : List ℕ) : Res (List (Write K)) :=
  (indices shape).mapM fun idx => do
    let v ← interp weight order mode cval filtered
      ((List.range filtered.shape.length).map fun a => coordinates.at' (a :: idx))
    return (idx, v)

/-- The tasks given to the threads. `chunklen` is `None` by default; `splineFilter` is scipy's
`spline_filter`. `helper.py:208-303`. -/
def tasks (weight : ℕ → K → ℕ → K) (splineFilter : ℕ → Arr K → Arr K) (input coordinates : Arr K)
    (order : ℤ) (mode : Mode) (cval : K) (prefilter : Bool) (chunklen : Option ℤ) :
    Res (List (List (Write K))) := do
  if order < 0 ∨ 5 < order then throw .runtimeError
  let order := order.toNat
  let shape := coordinates.shape.tail
  if input.shape.length < 1 ∨ shape.length < 1 then throw .runtimeError
  if coordinates.shape.head? ≠ some input.shape.length then throw .runtimeError
  let filtered := if prefilter ∧ 1 < order then splineFilter order input else input
  let chunklen := chunklen.getD (if shape.length < 3 then 1024 else 128)
  if 0 < chunklen then
    let cs ← chunks chunklen.toNat shape
    cs.mapM (chunkTask weight order mode cval filtered coordinates)
  else
    let t ← wholeTask weight order mode cval filtered coordinates shape
    return [t]

end

/-! ### Execution -/

/-- One possible order of the writes of several threads: in each step any task with something left
performs its next write. -/
inductive Interleaving {α : Type} : List (List α) → List α → Prop where
  | done {ts : List (List α)} (h : ∀ t ∈ ts, t = []) : Interleaving ts []
  | step {pre post : List (List α)} {w : α} {rest l : List α}
      (h : Interleaving (pre ++ rest :: post) l) : Interleaving (pre ++ (w :: rest) :: post) (w :: l)

/-- The output after a sequence of writes. -/
def run {K : Type} (mem : List ℕ → K) (ws : List (Write K)) : List ℕ → K :=
  ws.foldl (fun m w idx => if idx = w.1 then w.2 else m idx) mem

end Postpic.Interp
