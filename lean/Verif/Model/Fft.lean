import Mathlib.Analysis.SpecialFunctions.Trigonometric.Basic
import Mathlib.Data.List.Sort
import Mathlib.Data.List.Dedup
import Verif.Model.Field

/-!
# Fourier transforms of fields

`Field.fft`, `ensure_transform_state`, `shift_grid_by` with the fourier method. The numbers are real
and complex numbers; `numpy.fft` is described by the formulas of its documentation. A real matrix is
converted to a complex one at first (`self + 0j`), so the data here are complex.
-/

set_option autoImplicit false

namespace Postpic.Fields

open Postpic Postpic.Axes

noncomputable section

/-- `fftshift(2*np.pi*fftfreq(n, d))`. -/
def freqGrid (n : ℕ) (d : ℝ) : List ℝ :=
  (List.range n).map fun (j : ℕ) => ((j : ℝ) - (n / 2 : ℕ)) * (2 * Real.pi / (n * d))

/-- `_conjugate_grid` for one axis. `datahandling.py:1929-1951`. -/
def Field.conjugateGrid (f : Field ℝ ℂ) (i : ℤ) : Res (List ℝ) := do
  let ax ← pyGet f.axes i
  let dx ← ax.spacing
  let n ← pyGet f.shape i
  let g := freqGrid n dx
  match ← pyGet f.tao i with
  | none => return g
  | some o => do
    let g0 ← pyGet g 0
    return g.map (· + (o - g0))

/-- `all(self.axes[i].islinear() for i in axes)`. -/
def allLinear (axes : List (Axis ℝ)) : List ℤ → Res Bool
  | [] => .ok true
  | i :: is => do if (← pyGet axes i).isLinear then allLinear axes is else return false

/-- `all(self.axes_transform_state[i] == b for i in axes)`. -/
def allState (ats : List (Option Bool)) (b : Bool) : List ℤ → Res Bool
  | [] => .ok true
  | i :: is => do if (← pyGet ats i) = some b then allState ats b is else return false

/-- `_transform_state(axes)`. `datahandling.py:1870-1889`. -/
def collectiveState (ats : List (Option Bool)) (axes : List ℤ) : Res (Option Bool) := do
  if ← allState ats true axes then return some true
  if ← allState ats false axes then return some false
  return none

/-- The transform of `numpy.fft.fftn` (`inv = false`) or `ifftn` (`inv = true`) along one axis with
`norm='ortho'`. -/
def dftAlong (inv : Bool) (n i : ℕ) (g : List ℕ → ℂ) : List ℕ → ℂ := fun idx =>
  ∑ j ∈ Finset.range n, ((Real.sqrt n)⁻¹ : ℝ) *
    Complex.exp ((if inv then 1 else -1) * (2 * Real.pi * Complex.I * (idx.getD i 0 : ℕ) * j / n)) *
      g (idx.set i j)

/-- `fftn` and `ifftn`: the axes one after the other. -/
def dft (inv : Bool) (shape : List ℕ) (axes : List ℕ) (g : List ℕ → ℂ) : List ℕ → ℂ :=
  axes.foldl (fun g i => dftAlong inv (shape.getD i 0) i g) g

/-- The expression of `helper._linear_phase`: `exp(1j * (sum_i v_i * mesh_i + phi0))`, or with `-1j`
if the axes are not in the frequency domain. `dx` lists the axes and the numbers `v_i`.
`helper.py:933-956`. -/
def linearPhase (state : Bool) (axes : List (Axis ℝ)) (dx : List (ℕ × ℝ)) (phi0 : ℝ)
    (idx : List ℕ) : ℂ :=
  let arg : ℝ := (dx.map fun p => p.2 * ((axes.map (·.grid)).getD p.1 []).getD (idx.getD p.1 0) 0).sum
  Complex.exp ((if state then 1 else -1) * Complex.I * ((arg + phi0 : ℝ) : ℂ))

/-- `s.lstrip(chars)`. -/
def lstrip (s : String) (chars : List Char) : String :=
  String.ofList (s.toList.dropWhile fun c => decide (c ∈ chars))

/-- Name of the transformed axis. `datahandling.py:2062-2069`. -/
def conjugateName (state : Bool) (name : String) : String :=
  if state then (if name = "w" then "t" else lstrip name ['k'])
  else (if name = "t" then "w" else "k" ++ name)

/-- Unit of the transformed axis. `datahandling.py:2062-2069`. -/
def conjugateUnit (state : Bool) (unit : String) : String :=
  if state then lstrip unit ['1', '/'] else "1/" ++ unit

/-- What `fft` collects for one axis: number, spacing, number of points, first point of the present
and points of the new grid, first point of the new grid. `datahandling.py:2001-2020`. -/
structure FftAxis where
  i : ℕ
  dx : ℝ
  n : ℕ
  x0 : ℝ
  newGrid : List ℝ
  k0 : ℝ

/-- Collecting these values. -/
def Field.fftAxis (f : Field ℝ ℂ) (i : ℤ) : Res FftAxis := do
  let newGrid ← f.conjugateGrid i
  let ax ← pyGet f.axes i
  let x0 ← pyGet ax.grid 0
  let k0 ← pyGet newGrid 0
  let dx ← ax.spacing
  let n ← pyGet f.shape i
  return ⟨i.toNat, dx, n, x0, newGrid, k0⟩

/-- The loop which replaces the axes. `datahandling.py:2061-2075`. -/
def setConjugateAxes (spl : Splines ℝ) (shape : List ℕ) (state : Bool) :
    List FftAxis → List (Axis ℝ) → Res (List (Axis ℝ))
  | [], axes => .ok axes
  | p :: ps, axes => do
    let ax ← pyGet axes p.i
    let ax' ← mkAxis spl { name := conjugateName state ax.name, unit := conjugateUnit state ax.unit
                           grid := some p.newGrid }
    checkAxisObj shape p.i ax'
    setConjugateAxes spl shape state ps (axes.set p.i ax')

/-- `fftnorm = sqrt(V/Vk)` with `V = dV*N`, `Vk = (2*pi)**len(dx)/dV`.
`datahandling.py:2022-2038`. -/
def fftNorm (l : List FftAxis) : ℝ :=
  let dV := (l.map (·.dx)).prod
  let N : ℝ := (l.map fun p => (p.n : ℝ)).prod
  Real.sqrt (dV * N / ((2 * Real.pi) ^ l.length / dV))

/-- `fft(axes, exponential_signs, old_behaviour)`. An axis with a negative number leads to a
`KeyError`, because the expression passed to numexpr then contains e.g. `k-1`.
`datahandling.py:1953-2097`. -/
def Field.fft (spl : Splines ℝ) (f : Field ℝ ℂ) (axes : Option (List ℤ)) (signs : String)
    (old : Bool) : Res (Field ℝ ℂ) := do
  if ¬ (signs = "spatial" ∨ signs = "temporal") then throw .valueError
  let axs := ((axes.getD f.rangeDims).dedup).insertionSort (· ≤ ·)
  if !(← allLinear f.axes axs) then throw .valueError
  let state ← match ← collectiveState f.ats axs with
    | some b => (pure b : Res Bool)
    | none => throw .valueError
  let l ← axs.mapM f.fftAxis
  if axs.any (· < 0) then throw .keyError
  let phi0 := (l.map fun p => p.x0 * p.k0).sum
  let out := l.map fun p => (p.i, if old && state then 0 else p.k0)
  let inp := l.map fun p => (p.i, if old && !state then 0 else -p.x0)
  let norm := fftNorm l
  let conj : ℂ → ℂ := fun z => if signs = "temporal" then (starRingEnd ℂ) z else z
  let m1 := fun idx => conj (f.matrix.at' idx) * linearPhase state f.axes out 0 idx
  let m2 := dft state f.shape (l.map (·.i)) m1
  let axes' ← setConjugateAxes spl f.shape state l f.axes
  let m3 := fun idx => conj (norm * m2 idx * linearPhase (!state) axes' inp phi0 idx)
  return { f with
    matrix := ⟨f.shape, m3⟩
    axes := axes'
    ats := l.foldl (fun s p => s.set p.i (some !state)) f.ats
    tao := l.foldl (fun s p => s.set p.i (some p.x0)) f.tao }

/-- The request of `ensure_transform_state`: one state for all axes, a list, or a dictionary from
axis numbers to states. -/
inductive StateRequest where
  | all (b : Bool)
  | list (l : List Bool)
  | dict (d : List (ℤ × Bool))

/-- The request as a dictionary, sorted by the keys. `datahandling.py:2106-2112`. -/
def StateRequest.items (dims : ℕ) : StateRequest → List (ℤ × Bool)
  | .all b => (List.range dims).map fun (i : ℕ) => ((i : ℤ), b)
  | .list l => l.zipIdx.map fun (p : Bool × ℕ) => ((p.2 : ℤ), p.1)
  | .dict d => d.insertionSort fun p q => p.1 ≤ q.1

/-- The axes which are not in the requested state. `datahandling.py:2111-2114`. -/
def toTransform (ats : List (Option Bool)) : List (ℤ × Bool) → Res (List ℤ)
  | [] => .ok []
  | p :: ps => do
    let s ← pyGet ats p.1
    let r ← toTransform ats ps
    return if s = some p.2 then r else p.1 :: r

/-- `ensure_transform_state`. `datahandling.py:2099-2119`. -/
def Field.ensureTransformState (spl : Splines ℝ) (f : Field ℝ ℂ) (req : StateRequest) :
    Res (Field ℝ ℂ) := do
  let l ← toTransform f.ats (req.items f.dims.toNat)
  if l = [] then return f
  f.fft spl (some l) "spatial" false

/-- Adding to the stored origins: `None + x` is a `TypeError`. `datahandling.py:2156-2157`. -/
def addOrigins : List (ℤ × ℝ) → List (Option ℝ) → Res (List (Option ℝ))
  | [], tao => .ok tao
  | p :: ps, tao => do
    match ← pyGet tao p.1 with
    | none => throw .typeError
    | some o => do
      let tao' ← pySet tao p.1 (some (o + p.2))
      addOrigins ps tao'

/-- `_shift_grid_by_fourier(dx)`; `dx` lists axes and distances, each axis once. (The input is not
changed since `fft` returns a new field.) `datahandling.py:2148-2161`. -/
def Field.shiftFourier (spl : Splines ℝ) (f : Field ℝ ℂ) (dx : List (ℤ × ℝ)) : Res (Field ℝ ℂ) := do
  let axes := (dx.map (·.1)).insertionSort (· ≤ ·)
  let g ← f.fft spl (some axes) "spatial" false
  let tao ← addOrigins dx g.tao
  { g with tao := tao }.fft spl (some axes) "spatial" false

/-- `shift_grid_by(dx)` with the default method. `axesidentify` accepts the integers 0, 1 and 2.
`datahandling.py:2184-2208`. -/
def Field.shiftGridBy (spl : Splines ℝ) (f : Field ℝ ℂ) (dx : List (ℤ × ℝ)) : Res (Field ℝ ℂ) :=
  if dx.any fun p => decide (p.1 < 0 ∨ 2 < p.1) then .error .keyError else f.shiftFourier spl dx

end

end Postpic.Fields
