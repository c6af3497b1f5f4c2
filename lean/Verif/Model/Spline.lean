import Mathlib.Analysis.SpecialFunctions.Pow.Real
import Mathlib.Data.Real.Sqrt
import Verif.Model.Interp
import Verif.Model.MapGrid

/-!
# Interpolation with splines

The default of `map_coordinates_parallel` is `order=3` and `prefilter=True` (`postpic/helper.py:208-209, 244-247`): scipy first computes the
coefficients of a spline (`scipy.ndimage.spline_filter`), which are then summed up with the weights of the neighbours. Both are described
here as in `scipy/ndimage/src/ni_splines.c`, with real numbers.
-/

set_option autoImplicit false

namespace Postpic.Interp

open Postpic

noncomputable section

/-- All weights but the last one, `x` is the distance from the centre. `get_spline_interpolation_weights`. -/
def firstWeights (order : ℕ) (x : ℝ) : ℕ → ℝ :=
  let z := 1 - x
  match order with
  | 1 => fun _ => 1 - x
  | 2 => fun k => if k = 0 then (1 / 2 - x) ^ 2 / 2 else 3 / 4 - x ^ 2
  | 3 => fun k => if k = 0 then z ^ 3 / 6 else if k = 1 then (x * x * (x - 2) * 3 + 4) / 6 else (z * z * (z - 2) * 3 + 4) / 6
  | 4 => fun k =>
    let outer := fun y : ℝ => y * (y * (y * (5 - y) / 6 - 5 / 4) + 5 / 24) + 55 / 96
    if k = 0 then (1 / 2 - x) ^ 4 / 24 else if k = 1 then outer (1 + x)
    else if k = 2 then x ^ 2 * (x ^ 2 * (1 / 4) - 5 / 8) + 115 / 192 else outer z
  | 5 => fun k =>
    let inner := fun y : ℝ => y ^ 2 * (y ^ 2 * (1 / 4 - y / 12) - 1 / 2) + 11 / 20
    let outer := fun y : ℝ => y * (y * (y * (y * (y / 24 - 3 / 8) + 5 / 4) - 7 / 4) + 5 / 8) + 17 / 40
    if k = 0 then z ^ 5 / 120 else if k = 1 then outer (x + 1) else if k = 2 then inner x else if k = 3 then inner z
    else outer (z + 1)
  | _ => fun _ => 0

/-- The weights of the neighbours: all of them add up to 1. -/
def splineWeights (order : ℕ) (x : ℝ) (k : ℕ) : ℝ :=
  if k < order then firstWeights order x k else 1 - ((List.range order).map (firstWeights order x)).sum

/-- `get_filter_poles`. -/
def poles : ℕ → List ℝ
  | 2 => [√8 - 3]
  | 3 => [√3 - 2]
  | 4 => [√(664 - √438976) + √304 - 19, √(664 + √438976) - √304 - 19]
  | 5 => [√(135 / 2 - √(17745 / 4)) + √(105 / 4) - 13 / 2, √(135 / 2 + √(17745 / 4)) - √(105 / 4) - 13 / 2]
  | _ => []

/-- The first value of the forward recursion. `_init_causal_mirror`. -/
def causalInit (z : ℝ) (n : ℕ) (g : ℕ → ℝ) : ℝ :=
  (g 0 + z ^ (n - 1) * g (n - 1) +
    ((List.range (n - 2)).map fun k => z ^ (k + 1) * (g (k + 1) + z ^ (n - 1) * g (n - 2 - k))).sum) / (1 - z ^ (n - 1) * z ^ (n - 1))

/-- The forward recursion. `_apply_causal`. -/
def causal (z : ℝ) (n : ℕ) (g : ℕ → ℝ) : ℕ → ℝ
  | 0 => causalInit z n g
  | i + 1 => g (i + 1) + z * causal z n g i

/-- The backward recursion, `k` steps from the last value. `_init_anticausal_mirror`, `_apply_anticausal`. -/
def anticausal (z : ℝ) (n : ℕ) (y : ℕ → ℝ) : ℕ → ℝ
  | 0 => (z * y (n - 2) + y (n - 1)) * z / (z * z - 1)
  | k + 1 => z * (anticausal z n y k - y (n - 2 - k))

/-- One pole. -/
def polePass (n : ℕ) (g : ℕ → ℝ) (z : ℝ) (i : ℕ) : ℝ := anticausal z n (causal z n g) (n - 1 - i)

/-- `spline_filter1d` for `n` values. `apply_filter`. -/
def filter1d (order n : ℕ) (g : ℕ → ℝ) : ℕ → ℝ :=
  if n ≤ 1 then g
  else
    let gain := ((poles order).map fun z => (1 - z) * (1 - 1 / z)).prod
    (poles order).foldl (polePass n) fun i => gain * g i

/-- `spline_filter1d` along all axes, one after the other. -/
def filterAxes (order : ℕ) : List ℕ → (List ℕ → ℝ) → List ℕ → ℝ
  | n :: shape, g, i :: idx => filterAxes order shape (fun t => filter1d order n (fun k => g (k :: t)) i) idx
  | _, g, idx => g idx

/-- `scipy.ndimage.spline_filter(input, order)`. -/
def splineFilter (order : ℕ) (a : Arr ℝ) : Arr ℝ := ⟨a.shape, filterAxes order a.shape a.at'⟩

/-- One sample of `map_coordinates_parallel(input, coordinates, order=order, mode=mode, cval=cval)`. `helper.py:244-298`. -/
def splineSample (order : ℕ) (mode : Mode) (cval : ℝ) (a : Arr ℝ) (cs : List ℝ) : Res ℝ :=
  interp splineWeights order mode cval (if 1 < order then splineFilter order a else a) cs

/-- How the samples of an array of signed integers are stored: without `output`, `_ni_support._get_output` creates an array of the type of
the input (`helper.py:249-254`), and the result is rounded to the nearest integer, halves away from zero (`CASE_INTERP_OUT_INT` in
`scipy/ndimage/src/ni_interpolation.c`). Overflow is not modelled. -/
def storedInt (v : ℝ) : ℤ := if 0 < v then ⌊v + 1 / 2⌋ else -⌊-(v - 1 / 2)⌋

/-- One sample for an array of signed integers. `helper.py:244-298`. -/
def intSample (order : ℕ) (mode : Mode) (cval : ℝ) (a : Arr ℤ) (cs : List ℝ) : Res ℤ :=
  (splineSample order mode cval ⟨a.shape, fun idx => (a.at' idx : ℝ)⟩ cs).map storedInt

end

end Postpic.Interp
