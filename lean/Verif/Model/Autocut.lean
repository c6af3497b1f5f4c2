import Mathlib.Data.Nat.Notation
import Verif.Model.Field

/-!
# Cutting out the main feature of a field

Model of `Field.autocutout` (`postpic/datahandling.py:1479-1558`) and `max_frac_bounds`
(`postpic/helper.py:430-438`). Numbers are exact; `absV` is the absolute value of a sample and `tuk`
the function `tukey` of scipy or its replacement.
-/

set_option autoImplicit false

namespace Postpic.Fields

open Postpic Postpic.Axes

section
variable {K : Type} [_root_.Field K] [LinearOrder K]

/-- `max_frac_bounds(array, fraction)` for an array with one dimension. `helper.py:430-438`. -/
def maxFracBounds (array : List K) (fraction : K) : Res (ℕ × ℕ) :=
  match array.max? with
  | none => .error .valueError
  | some m =>
    let c := m * fraction
    let i := (List.range array.length).filter fun k => decide (c < array.getD k 0)
    match i.head?, i.getLast? with
    | some a, some b => .ok (a, b + 1)
    | _, _ => .error .indexError

/-- The slice and the shape parameter of the window for one axis, from the projection on this axis.
`datahandling.py:1519-1549`. -/
def cutRange (proj : List K) (fractions : K × K) : Res (ℤ × ℤ × K) := do
  let k : ℤ := proj.length
  let (a, d) ← maxFracBounds proj fractions.1
  let (b, c) ← maxFracBounds proj fractions.2
  let (a, b, c, d) : ℤ × ℤ × ℤ × ℤ := (a, b, c, d)
  if ¬ (a ≤ b ∧ b ≤ c ∧ c ≤ d) then throw .assertionError
  let ll := c - b
  let x := max (d - c) (b - a)
  let x := min (min x (k - c)) b
  let e := b - x
  let f := c + x
  let m := f - e
  return (e, f, 1 - (ll : K) / (m : K))

/-- `np.mean` of a list. -/
def meanList (l : List K) : K := l.sum / (l.length : K)

/-- The averages over the other axes, one after the other; `n` is the number of dimensions of the
field. The numbers are not adapted to the dimensions already removed.
`datahandling.py:1514-1517`. -/
def projectAxes (spl : Splines K) (n : ℕ) (axis : ℤ) (field : Field K K) : Res (Field K K) :=
  (List.range n).foldlM (fun (g : Field K K) (other : ℕ) =>
    if (other : ℤ) ≠ axis then g.reduce spl meanList (some [(other : ℤ)]) false else .ok g) field

variable {V : Type} [SMul K V]

/-- `w * a` with numpy's broadcasting. -/
def scaleBy (a : Arr V) (w : Arr K) : Res (Arr V) :=
  match bshape a.shape w.shape with
  | some s => .ok ⟨s, fun idx => w.at' (bindex w.shape idx) • a.at' (bindex a.shape idx)⟩
  | none => .error .valueError

/-- A list as array with `n` dimensions along dimension `d`. `datahandling.py:1547-1549`. -/
def alongAxis (n d : ℕ) (w : List K) : Arr K where
  shape := (List.replicate n 1).set d w.length
  at' idx := w.getD (idx.getD d 0) 0

/-- One turn of the loop: the number of the dimension, its slice and its window.
`datahandling.py:1513-1549`. -/
def cutAxis (spl : Splines K) (tuk : ℤ → K → Res (List K)) (absV : V → K) (field : Field K V)
    (fractions : K × K) (axis : ℤ) : Res (ℕ × Slice × List K) := do
  let a : Field K K := ⟨field.name, field.unit, ⟨field.shape, fun idx => absV (field.matrix.at' idx)⟩,
    field.axes, field.ats, field.tao⟩
  let p ← projectAxes spl field.dims.toNat axis a
  let k ← pyGet p.shape 0
  let (e, f, alpha) ← cutRange ((List.range k).map fun j => p.matrix.at' [j]) fractions
  let d ← axisIdx field.dims.toNat axis
  let w ← tuk (f - e) alpha
  return (d, ⟨some e, some f, false⟩, w)

/-- `autocutout(axes, fractions)`. The turns of the loop do not depend on each other; the slices are
put together at the end. `datahandling.py:1479-1558`. -/
def Field.autocutout (spl : Splines K) (tuk : ℤ → K → Res (List K)) (absV : V → K) (f : Field K V)
    (axes : Option (List ℤ)) (fractions : K × K) : Res (Field K V) := do
  let field ← f.squeeze spl
  let axes := axes.getD field.rangeDims
  if ¬ axes.Nodup then throw .valueError
  let cuts ← axes.mapM fun axis => cutAxis spl tuk absV field fractions axis
  let slices : List (Key K) := cuts.foldl (fun l c => l.set c.1 (.slice c.2.1))
    (List.replicate field.dims.toNat (.slice ⟨none, none, false⟩))
  let cut ← field.getitem spl slices
  let m ← cuts.foldlM (fun (m : Arr V) c => scaleBy m (alongAxis field.dims.toNat c.1 c.2.2)) cut.matrix
  cut.replaceData m

end

end Postpic.Fields
