import Verif.Model.Field
import Verif.Model.GradientFloat

/-!
# Model of `half_resolution` and `autoreduce` with rounding

`postpic/datahandling.py:352-359, 1171-1202, 1460-1470` once more, every operation followed by the rounding `rnd` (a parameter).
-/

set_option autoImplicit false

namespace Postpic.Fields

open Postpic Postpic.Axes Postpic.Histogram

variable {K : Type} [_root_.Field K] [LinearOrder K] [FloorRing K]

/-- The number, if it is finite. -/
def finite? : Dbl K → Option K
  | .fin x => some x
  | _ => none

/-- `0.5 * (x + y)`. -/
def middleF (rnd : K → Dbl K) (x y : K) : Dbl K := Dbl.mul rnd (.fin (1 / 2)) (Dbl.add rnd (.fin x) (.fin y))

/-- `half_resolution` of an axis; `none` if a grid point is not finite (such axes are not modelled). `datahandling.py:352-359`. -/
def axisHalfF [IsStrictOrderedRing K] (rnd : K → Dbl K) (spl : Splines K) (ax : Axis K) : Option (Res (Axis K)) :=
  ((List.zipWith (middleF rnd) (evens ax.grid.dropLast) (evens ax.grid.tail)).mapM finite?).map fun grid =>
    mkAxis spl { name := ax.name, unit := ax.unit, grid := some grid, gridNode := some (evens ax.gridNode) }

/-- `half_resolution(axis)`; `none` if a point of the new axis is not finite. `datahandling.py:1171-1202`. -/
def Field.halfResolutionF [IsStrictOrderedRing K] (rnd : K → Dbl K) (spl : Splines K) (f : Field K (Dbl K)) (axis : ℕ) :
    Option (Res (Field K (Dbl K))) :=
  if 2 < axis then some (.error .keyError)
  else match f.shape[axis]?, f.axes[axis]? with
    | some n, some ax => (axisHalfF rnd spl ax).map fun r => do
      let ax' ← r
      let m : Arr (Dbl K) := ⟨f.shape.set axis (n / 2), fun idx =>
        quotF rnd (Dbl.add rnd (f.matrix.at' (idx.modify axis fun k => 2 * k)) (f.matrix.at' (idx.modify axis fun k => 2 * k + 1))) (.fin 2)⟩
      checkAxisObj m.shape axis ax'
      return { f with matrix := m, axes := f.axes.set axis ax', tao := f.tao.set axis none }
    | _, _ => some (.error .indexError)

/-- The inner loop of `autoreduce` with at most `fuel` rounds; `none` if these do not suffice or an axis is not modelled. -/
def halveLoopF [IsStrictOrderedRing K] (rnd : K → Dbl K) (spl : Splines K) (maxlen : ℤ) (i : ℕ) :
    ℕ → Field K (Dbl K) → Option (Res (Field K (Dbl K)))
  | 0, _ => none
  | fuel + 1, f => match f.axes[i]? with
    | none => some (.error .indexError)
    | some ax =>
      if maxlen < ax.len then match f.halfResolutionF rnd spl i with
        | some (.ok f') => halveLoopF rnd spl maxlen i fuel f'
        | r => r
      else some (.ok f)

/-- The outer loop of `autoreduce`. -/
def reduceLoopF [IsStrictOrderedRing K] (rnd : K → Dbl K) (spl : Splines K) (maxlen : ℤ) (fuel : ℕ) :
    List ℕ → Field K (Dbl K) → Option (Res (Field K (Dbl K)))
  | [], f => some (.ok f)
  | i :: is, f => match halveLoopF rnd spl maxlen i fuel f with
    | some (.ok f') => reduceLoopF rnd spl maxlen fuel is f'
    | r => r

/-- `autoreduce(maxlen)`. `datahandling.py:1460-1470`. -/
def Field.autoreduceF [IsStrictOrderedRing K] (rnd : K → Dbl K) (spl : Splines K) (maxlen : ℤ) (fuel : ℕ) (f : Field K (Dbl K)) :
    Option (Res (Field K (Dbl K))) := reduceLoopF rnd spl maxlen fuel (List.range f.axes.length) f

end Postpic.Fields
