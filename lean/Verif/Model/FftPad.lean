import Mathlib.Data.List.Sort
import Mathlib.Data.Nat.Size
import Verif.Model.Field

/-!
# Sizes for fast Fourier transforms

Model of `FFTW_Pad` and `fft_padsize_power2` in `postpic/helper.py` and of `Field.fft_autopad` in
`postpic/datahandling.py`. Sizes are natural numbers. `int(math.log(x, b))` is a floating point
computation; the model takes it as a function `lg` and the theorems hold for every `lg` that is
not too small (see `Spec.FftPad.LogOk`).
-/

set_option autoImplicit false

namespace Postpic.Fields

open Postpic Postpic.Axes

/-- `itertools.product(*ranges)`: every way to choose one element of each list. -/
def choices : List (List ℕ) → List (List ℕ)
  | [] => [[]]
  | r :: rs => r.flatMap fun p => (choices rs).map fun ps => p :: ps

/-- `product(iterable)`; the empty iterable raises `StopIteration` (which the surrounding
generator turns into `RuntimeError`). `helper.py:441-453`. -/
def productPy : List ℕ → Res ℕ
  | [] => .error .genericException
  | x :: xs => .ok (xs.foldl (· * ·) x)

/-- An `FFTW_Pad` object: the attributes `factors`, `_fftsize_max` and `fftsizes`.
`helper.py:456-507`. -/
structure FftwPad where
  factors : List ℕ
  max : ℕ
  sizes : List ℕ
  deriving DecidableEq

/-- The loop `for x in (11, 13)`: the extra factors and the remaining factors.
`helper.py:480-485`. -/
def splitFactors (factors : List ℕ) : List ℕ × List ℕ :=
  [11, 13].foldl (fun s x => if x ∈ s.2 then (s.1 ++ [x], s.2.erase x) else s) ([1], factors)

/-- All products of powers, for one extra factor. `helper.py:489-494`. -/
def sizesWith (lg : ℕ → ℕ → ℕ → ℕ) (max : ℕ) (fs : List ℕ) (e : ℕ) : Res (List ℕ) :=
  (choices (fs.map fun i => List.range (lg max e i + 1))).mapM fun ps => do
    let q ← productPy (List.zipWith (fun f p => f ^ p) fs ps)
    return e * q

/-- The new value of `fftsizes` in the setter of `fftsize_max`. `helper.py:480-495`. -/
def fftSizes (lg : ℕ → ℕ → ℕ → ℕ) (factors : List ℕ) (max : ℕ) : Res (List ℕ) := do
  let s := splitFactors factors
  let ls ← s.1.mapM (sizesWith lg max s.2)
  return (ls.flatten.filter fun x => decide (x ≤ max)).insertionSort (· ≤ ·)

/-- `FFTW_Pad(fftsize_max, factors)`; the default of `fftsize_max` is 1. `helper.py:461-470`. -/
def FftwPad.new (lg : ℕ → ℕ → ℕ → ℕ) (max : ℕ := 1)
    (factors : List ℕ := [2, 3, 5, 7, 11, 13]) : Res FftwPad := do
  let sizes ← fftSizes lg factors max
  return { factors, max, sizes }

/-- `fftsizes[searchsorted(fftsizes, n)]`; for a sorted list the position is the number of leading
entries smaller than `n`. `helper.py:506-507`. -/
def searchSizes (sizes : List ℕ) (n : ℕ) : Res ℕ :=
  match sizes[(sizes.takeWhile fun x => decide (x < n)).length]? with
  | some s => .ok s
  | none => .error .indexError

/-- `pad(n)`: the result and the object afterwards. `helper.py:497-507`. -/
def FftwPad.call (lg : ℕ → ℕ → ℕ → ℕ) (p : FftwPad) (n : ℕ) : Res ℕ × FftwPad :=
  match p.sizes.getLast? with
  | none => (.error .indexError, p)
  | some last =>
    if last < n then
      match fftSizes lg p.factors (n + 10000) with
      | .ok sizes => (searchSizes sizes n, { p with max := n + 10000, sizes })
      | .error e => (.error e, { p with max := n + 10000 })
    else (searchSizes p.sizes n, p)

/-- The object after a series of calls, whatever their outcome. -/
def FftwPad.after (lg : ℕ → ℕ → ℕ → ℕ) (p : FftwPad) (calls : List ℕ) : FftwPad :=
  calls.foldl (fun q n => (q.call lg n).2) p

/-- `fft_padsize_power2(n)`. `helper.py:513-514`. -/
def fftPadsizePower2 (n : ℕ) : ℕ := 1 <<< n.size

section
variable {K V : Type} [_root_.Field K] [LinearOrder K] [FloorRing K]

/-- The loop over the axes: `pad[axis] = [pad1, pad2]`. `datahandling.py:1916-1925`. -/
def autopadWidths (shape : List ℕ) (padsize : ℕ → Res ℕ) :
    List ℤ → List (ℤ × ℤ) → Res (List (ℤ × ℤ))
  | [], w => .ok w
  | ax :: axs, w => do
    let ll ← pyGet shape ax
    let s ← padsize ll
    let pad0 := (s : ℤ) - ll
    let pad1 := pad0.fdiv 2
    let w' ← pySet w ax (pad1, pad0 - pad1)
    autopadWidths shape padsize axs w'

/-- `fft_autopad(axes, fft_padsize)`; `none` stands for all axes. The padding value of `np.pad` is
passed as `c`. `datahandling.py:1891-1927`. -/
def Field.fftAutopad (spl : Splines K) (f : Field K V) (axes : Option (List ℤ))
    (padsize : ℕ → Res ℕ) (c : V) : Res (Field K V) := do
  let axs := axes.getD f.rangeDims
  let w ← autopadWidths f.shape padsize axs (List.replicate f.dims.toNat (0, 0))
  f.pad spl (w.map fun q => (.cells q.1, .cells q.2)) c

end

end Postpic.Fields
