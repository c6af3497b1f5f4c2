import Mathlib.LinearAlgebra.CrossProduct
import Verif.Model.Kspace
import Verif.Spec.Fft
import Verif.Spec.FieldMoves

/-!
# Specification: plane waves and fields in the frequency domain
-/

set_option autoImplicit false

namespace Postpic.Spec

open Postpic Postpic.Axes Postpic.Fields

noncomputable section

/-- A field with one to three dimensions and at least two points along each, whose spatial grid along the dimension `d` consists
of the points `x0 d, x0 d + h d, ...`. The field is in the spatial domain (`state = false`), or in the frequency domain
(`state = true`) and then remembers where its spatial grid starts. -/
structure OnGrid (f : Field ℝ ℂ) (shape : List ℕ) (state : Bool) (x0 h : ℕ → ℝ) : Prop where
  sound : f.Sound
  size : f.shape = shape
  some_dim : shape ≠ []
  three : shape.length ≤ 3
  two : ∀ n ∈ shape, 2 ≤ n
  pos : ∀ d < shape.length, 0 < h d
  states : ∀ d < shape.length, f.ats[d]? = some (some state)
  spatial : state = false → ∀ d < shape.length, ∃ ax, f.axes[d]? = some ax ∧ EvenAxis ax (x0 d - h d / 2) (h d)
  frequency : state = true → ∀ d n, shape[d]? = some n → f.tao[d]? = some (some (x0 d)) ∧
    ∃ ax k0, f.axes[d]? = some ax ∧ EvenAxis ax k0 (2 * Real.pi / (n * h d))

/-- The wave vector of a position of a field in the frequency domain; components along missing dimensions are 0. -/
def waveVector (F : Field ℝ ℂ) (idx : List ℕ) : Fin 3 → ℝ := fun d => (gridAlong F d).getD (idx.getD d 0) 0

/-- `Ex`, `Ey`, `Ez`, `Bx`, `By`, `Bz`. -/
def componentName (electric : Bool) (j : Fin 3) : String :=
  (if electric then "E" else "B") ++ ["x", "y", "z"].getD j ""

/-- The component `j` of the other field is needed for the component `p` of the cross product with a vector of `N` components:
it is multiplied with the component different from `p` and `j`. -/
def Needed (N : ℕ) (p j : Fin 3) : Prop := j ≠ p ∧ ∃ m : Fin 3, m ≠ p ∧ m ≠ j ∧ m.val < N

/-- How far the grids may be apart: without interpolation they have to be equal up to the tolerance of `np.isclose`, with the
fourier method closer than two cells. (The linear method is left out.) -/
def GridsMatch (interp : Interpolation) (N : ℕ) (x0 y0 h : ℕ → ℝ) : Prop :=
  match interp with
  | .none => ∀ d < N, |x0 d - y0 d| ≤ 1 / 100000000 + 1 / 100000 * |y0 d|
  | .fourier => ∀ d < N, |x0 d - y0 d| < 2 * h d
  | .linear => False

/-- What is passed to `kspace`: the component `p` of one field (`main`) and the needed components of the other one, all with the
same number of points and the same spacing. -/
structure KspaceInput (fields : List (String × Field ℝ ℂ)) (electric : Bool) (p : Fin 3) (interp : Interpolation)
    (shape : List ℕ) (main : Field ℝ ℂ) (other : Fin 3 → Field ℝ ℂ) (state : Bool) (states : Fin 3 → Bool)
    (x0 h : ℕ → ℝ) (y0 : Fin 3 → ℕ → ℝ) : Prop where
  present : fields.lookup (componentName electric p) = some main
  mainGrid : OnGrid main shape state x0 h
  othersPresent : ∀ j, Needed shape.length p j → fields.lookup (componentName (!electric) j) = some (other j)
  otherGrid : ∀ j, Needed shape.length p j → OnGrid (other j) shape (states j) (y0 j) h
  aligned : ∀ j, Needed shape.length p j → GridsMatch interp shape.length x0 (y0 j) h

/-- `-ω/k²` for the electric and `1/ω` for the magnetic field; 0 where this is not a number. -/
def crossFactor (electric : Bool) (omega : Option ℝ) (k : Fin 3 → ℝ) : ℝ :=
  match omega with
  | none => 0
  | some w => if electric then (if k = 0 then 0 else -(w / (k 0 ^ 2 + k 1 ^ 2 + k 2 ^ 2))) else (if w = 0 then 0 else 1 / w)

/-- The cross product of a wave vector and a complex amplitude. -/
def cross (k : Fin 3 → ℝ) (A : Fin 3 → ℂ) : Fin 3 → ℂ := crossProduct (fun d => (k d : ℂ)) A

/-- The amplitudes of a plane wave `exp(ikx - i dir ω t)` in vacuum: Faraday's law, and `E` is transverse. For `dir = 1` the wave
runs along `k`, for `dir = -1` against `k`. -/
structure PlaneWave (dir : ℝ) (k : Fin 3 → ℝ) (w : ℝ) (E B : Fin 3 → ℂ) : Prop where
  faraday : cross k E = fun d => (dir * w : ℝ) * B d
  transverse : (k 0 : ℂ) * E 0 + k 1 * E 1 + k 2 * E 2 = 0

/-! ### Propagation -/

/-- The arguments of `kspace_propagate` fit to `N` dimensions: the direction has `N` components, not all 0, and it is given if it is
needed. -/
structure PropagateOk (a : PropagateArgs) (N : ℕ) : Prop where
  direction : ∀ u, a.movingWindowVect = some u → u.length = N ∧ ∃ x ∈ u, x ≠ 0
  needed : a.movingWindowVect = none → a.removeAntipropagating ≠ some true ∧ a.moveWindow ≠ some true

/-- The window moves: if asked for, or if there is a direction and nothing is said. -/
def moves (a : PropagateArgs) : Prop := a.moveWindow = some true ∨ a.moveWindow = none ∧ a.movingWindowVect ≠ none

/-- Waves running against the direction are removed. -/
def removes (a : PropagateArgs) : Prop :=
  a.removeAntipropagating = some true ∨ a.removeAntipropagating = none ∧ a.movingWindowVect ≠ none

/-- The components of the direction. -/
def direction (a : PropagateArgs) (d : ℕ) : ℝ := (a.movingWindowVect.getD []).getD d 0

open Classical in
/-- The window moves with the speed of light along the direction: the distance along the dimension `d` after the time `t`. -/
def windowShift (a : PropagateArgs) (t : ℝ) (d : ℕ) : ℝ :=
  if moves a then lightSpeed * t * direction a d / Real.sqrt (direction a 0 ^ 2 + direction a 1 ^ 2 + direction a 2 ^ 2) else 0

/-- The wave with the wave vector `k` is removed. -/
def Removed (a : PropagateArgs) (k : Fin 3 → ℝ) : Prop :=
  removes a ∧ direction a 0 * k 0 + direction a 1 * k 1 + direction a 2 * k 2 < 0

/-- `exp(-iωt)` with `ω = c|k|`. -/
def vacuumPhase (k : Fin 3 → ℝ) (t : ℝ) : ℂ :=
  Complex.exp (-(Complex.I * (lightSpeed * Real.sqrt (k 0 ^ 2 + k 1 ^ 2 + k 2 ^ 2) * t : ℝ)))

/-- `P` is the field `K` at a time which is later by `t`: the phase of every wave has changed as in vacuum, the waves against the
direction are removed, and the spatial grid has moved with the window. -/
structure Evolved (a : PropagateArgs) (K P : Field ℝ ℂ) (shape : List ℕ) (x0 h : ℕ → ℝ) (t : ℝ) : Prop where
  axes : P.axes = K.axes
  grid : OnGrid P shape true (fun d => x0 d + windowShift a t d) h
  kept : ∀ idx, InBounds shape idx → ¬ Removed a (waveVector K idx) →
    P.matrix.at' idx = K.matrix.at' idx * vacuumPhase (waveVector K idx) t
  removed : ∀ idx, InBounds shape idx → Removed a (waveVector K idx) → P.matrix.at' idx = 0
  name : P.name = K.name
  unit : P.unit = K.unit

/-- Two fields which cannot be told apart: same values inside of the array, same axes, states, origins, name and unit. -/
structure SameField (f g : Field ℝ ℂ) : Prop where
  data : f.matrix.Eqv g.matrix
  axes : f.axes = g.axes
  states : f.ats = g.ats
  origins : f.tao = g.tao
  name : f.name = g.name
  unit : f.unit = g.unit

end

end Postpic.Spec
