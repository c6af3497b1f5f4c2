import Verif.Model.Autocut
import Verif.Model.Compat
import Verif.Model.FftPad
import Verif.Model.Kspace

/-!
# Model of the adaptive propagation

`kspace_propagate_adaptive`: `postpic/experimental.py:33-121`. The results of a generator are a list: what the first calls of
`next` give. An exception is the last entry.
-/

set_option autoImplicit false

namespace Postpic.Fields

open Postpic Postpic.Axes

noncomputable section

/-- `physical_length`. `datahandling.py:282-284`. -/
def physicalLength (ax : Axis ℝ) : ℝ := |ax.extent.2 - ax.extent.1|

/-- `np.mean(axis.extent)`. `experimental.py:67, 86`. -/
def middle (ax : Axis ℝ) : ℝ := (ax.extent.1 + ax.extent.2) / 2

/-- Half the mean length of the other axes; without other axes the mean is not a number and `pad` fails to convert it
(`ValueError`). `experimental.py:76-80`. -/
def adaptiveDistance (axes : List (Axis ℝ)) (axis : ℤ) : Res ℝ := do
  let transv ← pyDel (axes.map physicalLength) axis
  if transv = [] then throw .valueError
  return 0.5 * meanList transv

/-- The widths of the padding. A division by 0 gives an infinite number or none at all, and `pad` raises an exception
(`undefinedBehaviour`). `experimental.py:83-94`. -/
def adaptivePad (axes : List (Axis ℝ)) (axis : ℤ) (x0 distance : ℝ) : Res (List (PadWidth ℝ × PadWidth ℝ)) := do
  let ax ← pyGet axes axis
  let x := middle ax - x0 + distance
  if x = 0 then throw .undefinedBehaviour
  let xpad := distance / x * (0.5 * physicalLength ax)
  pySet (List.replicate axes.length (.length distance, .length distance)) axis (.length xpad, .length (0.1 * xpad))

/-- `autoreduce()`; the number of rounds is bounded by the number of points. `experimental.py:73`. -/
def reduced (spl : Splines ℝ) (f : Field ℝ ℂ) : Res (Field ℝ ℂ) :=
  match f.autoreduce spl 4000 (f.shape.foldr max 0 + 1) with
  | some r => r
  | none => .error .undefinedBehaviour

/-- One run of the loop, up to the result in the spatial domain: the time step and the new field. `vect` is the direction of
the window, `x0` the middle of the first field. `experimental.py:72-107`. -/
def adaptiveStep (spl : Splines ℝ) (padsize : ℕ → Res ℕ) (vect : List ℝ) (x0 : ℝ) (axis : ℤ) (f : Field ℝ ℂ) :
    Res (ℝ × Field ℝ ℂ) := do
  let f ← reduced spl f
  let distance ← adaptiveDistance f.axes axis
  let timestep := distance / lightSpeed
  let pad ← adaptivePad f.axes axis x0 distance
  let f ← f.pad spl pad 0
  let f ← f.fftAutopad spl none padsize 0
  let l ← propagate spl f 1 { dt := timestep, movingWindowVect := some vect }
  let f ← pyGet l 0
  let f ← f.autocutout spl (fun m a => Compat.tukey m a) (fun z => ‖z‖) none (0.01, 0.02)
  return (timestep, f)

/-- The loop: the results of the first calls of `next`. `experimental.py:72-112`. -/
def adaptiveLoop (step : Field ℝ ℂ → Res (ℝ × Field ℝ ℂ)) (out : Field ℝ ℂ → Res (Field ℝ ℂ)) :
    ℕ → ℝ → Field ℝ ℂ → List (Res (ℝ × Field ℝ ℂ))
  | 0, _, _ => []
  | n + 1, t, f =>
    match step f with
    | .error e => [.error e]
    | .ok (dt, g) =>
      match out g with
      | .error e => [.error e]
      | .ok r => .ok (t + dt, r) :: adaptiveLoop step out n (t + dt) g

/-- What happens before the loop: whether the field is in the frequency domain, the field in the spatial domain, the direction
of the window and the middle of the field. `experimental.py:49-67`. -/
def adaptiveStart (spl : Splines ℝ) (f : Field ℝ ℂ) (axis : ℤ) : Res (Bool × Field ℝ ℂ × List ℝ × ℝ) := do
  let state ← match ← collectiveState f.ats f.rangeDims with
    | some b => (pure b : Res Bool)
    | none => throw .valueError
  let g ← if state then f.fft spl none "spatial" false else pure f
  let vect ← pySet (List.replicate g.dims.toNat (0 : ℝ)) axis 1
  let ax ← pyGet g.axes axis
  return (state, g, vect, middle ax)

/-- `_kspace_propagate_adaptive_generator`: what the first `n` calls of `next` give. `experimental.py:33-112`. -/
def adaptiveGenerator (spl : Splines ℝ) (padsize : ℕ → Res ℕ) (f : Field ℝ ℂ) (axis : ℤ) (zeroth : Bool) (n : ℕ) :
    List (Res (ℝ × Field ℝ ℂ)) :=
  match adaptiveStart spl f axis with
  | .error e => if n = 0 then [] else [.error e]
  | .ok (state, g, vect, x0) =>
    let loop := fun k => adaptiveLoop (adaptiveStep spl padsize vect x0 axis)
      (fun g => if state then g.fft spl none "spatial" false else .ok g) k 0 g
    if zeroth then
      match n with
      | 0 => []
      | n + 1 => .ok (0, f) :: loop n
    else loop n

/-- `if t_final and t > t_final`. `experimental.py:120`. -/
def adaptiveEnds (tFinal : Option ℝ) (t : ℝ) : Prop := ∃ T, tFinal = some T ∧ T ≠ 0 ∧ T < t

open Classical in
/-- The loop of `kspace_propagate_adaptive` over the results of the generator. `experimental.py:117-121`. -/
def adaptiveUntil (tFinal : Option ℝ) : List (Res (ℝ × Field ℝ ℂ)) → List (Res (ℝ × Field ℝ ℂ))
  | [] => []
  | .error e :: _ => [.error e]
  | .ok r :: l => .ok r :: if adaptiveEnds tFinal r.1 then [] else adaptiveUntil tFinal l

/-- `kspace_propagate_adaptive`: what the first `n` calls of `next` give. If there are less than `n`, the last one is an exception
or the generator has come to its end. `experimental.py:115-121`. -/
def propagateAdaptive (spl : Splines ℝ) (padsize : ℕ → Res ℕ) (f : Field ℝ ℂ) (axis : ℤ) (tFinal : Option ℝ) (zeroth : Bool)
    (n : ℕ) : List (Res (ℝ × Field ℝ ℂ)) :=
  adaptiveUntil tFinal (adaptiveGenerator spl padsize f axis zeroth n)

end

end Postpic.Fields
