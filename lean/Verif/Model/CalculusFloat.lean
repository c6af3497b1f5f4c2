import Verif.Model.Field
import Verif.Model.StatisticsFloat

/-!
# Model of sums and integrals of fields with rounding

`postpic/datahandling.py:466-526, 1722-1741, 1753-1789` once more, every operation followed by the rounding `rnd` (a parameter). The
values of a field are doubles, its coordinates are finite. `add` adds the numbers of a list; numpy and numexpr choose the order.
-/

set_option autoImplicit false

namespace Postpic.Fields

open Postpic Postpic.Axes Postpic.Histogram

variable {K : Type} [_root_.Field K] [LinearOrder K] [FloorRing K]

/-- `grid_node[1:] - grid_node[:-1]`. -/
def boxesF (rnd : K → Dbl K) (ax : Axis K) : List (Dbl K) :=
  List.zipWith (fun b a => Dbl.sub rnd (.fin b) (.fin a)) ax.gridNode.tail ax.gridNode

/-- `ret * np.reshape(box_sizes, shape)`. `datahandling.py:1733-1737`. As in `Field.mulBoxes`, boxes whose number differs from the length
of the data are refused. -/
def Field.mulBoxesF (rnd : K → Dbl K) (f orig : Field K (Dbl K)) (axis : ℤ) : Res (Field K (Dbl K)) := do
  let ax ← pyGet orig.axes axis
  match pyIdx orig.dims.toNat axis with
  | none => throw .indexError
  | some k =>
    if f.shape[k]? ≠ some (boxesF rnd ax).length then throw .valueError
    mkField ⟨f.shape, fun idx => Dbl.mul rnd (f.matrix.at' idx) ((boxesF rnd ax).getD (idx.getD k 0) (.fin 0))⟩
      f.name f.unit f.axes f.ats f.tao

/-- The loop of `_integrate_constant`. -/
def mulAllBoxesF (rnd : K → Dbl K) (orig f : Field K (Dbl K)) : List ℤ → Res (Field K (Dbl K))
  | [] => .ok f
  | i :: is => do mulAllBoxesF rnd orig (← f.mulBoxesF rnd orig i) is

/-- `_integrate_constant(axes)`. `datahandling.py:1722-1741`. -/
def Field.integrateConstantF (rnd : K → Dbl K) (add : List (Dbl K) → Dbl K) (spl : Splines K) (f : Field K (Dbl K)) (axes : List ℤ) :
    Res (Field K (Dbl K)) := do
  let axes := axes.dedup.insertionSort (· ≤ ·)
  let ret ← mulAllBoxesF rnd f f axes.reverse
  ret.reduce spl add (some axes) false

/-- One round of the loop of `_integrate_fast`. `datahandling.py:1769-1785`. -/
def Field.integrateStepF (rnd : K → Dbl K) (add : List (Dbl K) → Dbl K) (f : Field K (Dbl K)) (axis : ℤ) : Res (Field K (Dbl K)) := do
  let ax ← pyGet f.axes axis
  match pyIdx f.dims.toNat axis with
  | none => throw .indexError
  | some k =>
    if f.shape[k]? ≠ some (boxesF rnd ax).length then throw .valueError
    let axes ← pyDel f.axes axis
    let ats ← pyDel f.ats axis
    let tao ← pyDel f.tao axis
    return { f with
      matrix := ⟨f.shape.eraseIdx k, fun idx => add ((List.range (boxesF rnd ax).length).map fun j =>
        Dbl.mul rnd ((boxesF rnd ax).getD j (.fin 0)) (f.matrix.at' (idx.insertIdx k j)))⟩
      axes := axes, ats := ats, tao := tao }

/-- The loop of `_integrate_fast`; the list is given in the order of processing. `datahandling.py:1767-1787`. -/
def fastLoopF (rnd : K → Dbl K) (add : List (Dbl K) → Dbl K) (f : Field K (Dbl K)) : List ℤ → Res (Field K (Dbl K))
  | [] => .ok f
  | a :: as => do
    fastLoopF rnd add (← f.integrateStepF rnd add a) (as.map fun i => if a < i then i - 1 else i)
  termination_by l => l.length
  decreasing_by simp

/-- `_integrate_fast(axes)`. The axis with most points comes first. `datahandling.py:1753-1789`. -/
def Field.integrateFastF (rnd : K → Dbl K) (add : List (Dbl K) → Dbl K) (f : Field K (Dbl K)) (axes : List ℤ) : Res (Field K (Dbl K)) := do
  let keys ← axes.dedup.mapM fun i => do return (← pyGet f.shape i, i)
  fastLoopF rnd add f ((keys.insertionSort (fun p q => p.1 ≤ q.1)).reverse.map (·.2))

/-- The field with other values. -/
def Field.mapValues {V W : Type} (f : Field K V) (g : V → W) : Field K W :=
  ⟨f.name, f.unit, ⟨f.shape, fun idx => g (f.matrix.at' idx)⟩, f.axes, f.ats, f.tao⟩

end Postpic.Fields
