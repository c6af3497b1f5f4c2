import Mathlib.Analysis.SpecialFunctions.Trigonometric.Inverse
import Verif.Model.Fft

/-!
# Model of the reconstruction of the k-space and of the propagation in vacuum

`kspace`, `kspace_propagate` and the dispersion relations of `postpic/helper.py:517-543, 740-1110`. As in `Model/Fft.lean` the
data are complex numbers.
-/

set_option autoImplicit false

namespace Postpic.Fields

open Postpic Postpic.Axes

noncomputable section

/-- `PhysicalConstants.c`. `helper.py:159`. -/
def lightSpeed : ℝ := 299792458

/-- The wave vector at a position of the mesh `meshgrid(*[ax.grid for ax in axes], sparse=True)`. -/
def meshAt (axes : List (Axis ℝ)) (idx : List ℕ) : List ℝ := (axes.zip idx).map fun p => p.1.grid.getD p.2 0

/-- `sum(ki**2 for ki in mesh)`. -/
def square (k : List ℝ) : ℝ := (k.map (· ^ 2)).sum

/-- `omega_free`. The dispersion relations are functions of the wave vector here, `none` means `nan`. `helper.py:535-543`. -/
def omegaFree (k : List ℝ) : Option ℝ := some (lightSpeed * Real.sqrt (square k))

/-- `omega_yee_factory(dx, dt)`; `arcsin` of a number above 1 is `nan`. `helper.py:517-532`. -/
def omegaYee (dx : List ℝ) (dt : ℝ) (k : List ℝ) : Option ℝ :=
  let s := lightSpeed * dt * Real.sqrt ((k.zip dx).map fun p => (Real.sin (p.1 * p.2 / 2) / p.2) ^ 2).sum
  if 1 < |s| then none else some (2 * Real.arcsin s / dt)

/-- `prefactor`, with 0 in the places of `nan` and `inf`. `helper.py:829-836`. -/
def prefactor (electric : Bool) (omega : List ℝ → Option ℝ) (k : List ℝ) : ℝ :=
  match omega k with
  | none => 0
  | some w => if electric then (if square k = 0 then 0 else w / square k) else (if w = 0 then 0 else -1 / w)

/-- The values of the keyword argument `interpolation`. -/
inductive Interpolation where
  | none
  | linear
  | fourier
deriving DecidableEq

/-- `polfield` and `polaxis`: the first two characters of `component`, any character which is not `E` stands for another
field than `E`. `axesidentify['r']` is 90, `axesidentify['t']` 91. `helper.py:782-791`, `helper.py:81-86`. -/
def parseComponent (component : String) : Res (Char × ℕ) :=
  match component.toList with
  | a :: b :: _ =>
    if b = 'x' ∨ b = 'X' then .ok (a, 0) else if b = 'y' ∨ b = 'Y' then .ok (a, 1)
    else if b = 'z' ∨ b = 'Z' then .ok (a, 2) else if b = 'r' ∨ b = 'R' then .ok (a, 90)
    else if b = 't' then .ok (a, 91) else .error .keyError
  | _ => .error .indexError

/-- `field_keys[polfield][polaxis]`, `none` for a `KeyError`. `helper.py:794-795`. -/
def fieldKey (electric : Bool) : ℕ → Option String
  | 0 => some (if electric then "Ex" else "Bx")
  | 1 => some (if electric then "Ey" else "By")
  | 2 => some (if electric then "Ez" else "Bz")
  | _ => none

/-- First point, distance of the last point from the first and spacing of a grid. `helper.py:809-816, 865-877`. -/
def gridData (g : List ℝ) : Res (ℝ × ℝ) := do
  let a ← pyGet g 0
  let b ← pyGet g (-1)
  return (a, b - a)

/-- `g[1] - g[0]`. `helper.py:816`. -/
def gridStep (g : List ℝ) : Res ℝ := do
  let a ← pyGet g 0
  let b ← pyGet g 1
  return b - a

/-- Origins and box lengths of a field, from the conjugate grid in the frequency domain. `helper.py:852-877`. -/
def Field.spatialData (f : Field ℝ ℂ) : Res (List (ℝ × ℝ)) := do
  match ← collectiveState f.ats f.rangeDims with
  | some true => f.rangeDims.mapM fun i => do gridData (← f.conjugateGrid i)
  | _ => f.axes.mapM fun ax => gridData ax.grid

/-- The conjugate grids of all axes. -/
def Field.conjugateGrids (f : Field ℝ ℂ) : Res (List (List ℝ)) := f.rangeDims.mapM f.conjugateGrid

/-- `np.all(np.isclose(a, b))` for lists of the same length. -/
def allClose (a b : List ℝ) : Bool := (a.zip b).all fun p => isclose p.1 p.2

/-- `_transform_state()` is `None`: some axes are in the spatial and some in the frequency domain. `helper.py:852-857`. -/
def Field.unmixed (spl : Splines ℝ) (f : Field ℝ ℂ) (interp : Interpolation) : Res (Field ℝ ℂ) := do
  match ← collectiveState f.ats f.rangeDims with
  | none => f.ensureTransformState spl (.all (interp ≠ .linear))
  | some _ => return f

/-- The field which is multiplied with a component of the wave vector, after the checks of its grid. `data` and `dx` belong to
the grid of the result. `lin` stands for `_shift_grid_by_linear`. `helper.py:852-921`. -/
def Field.aligned (spl : Splines ℝ) (lin : Field ℝ ℂ → List ℝ → Res (Field ℝ ℂ)) (interp : Interpolation)
    (shape : List ℕ) (data : List (ℝ × ℝ)) (dx : List ℝ) (f : Field ℝ ℂ) : Res (Field ℝ ℂ) := do
  let f ← f.unmixed spl interp
  let fdata ← f.spatialData
  if f.shape ≠ shape then throw .valueError
  if !allClose (data.map (·.2)) (fdata.map (·.2)) then throw .valueError
  let shift := (data.zip fdata).map fun p => p.1.1 - p.2.1
  match interp with
  | .none =>
    if !allClose (data.map (·.1)) (fdata.map (·.1)) then throw .valueError
    f.ensureTransformState spl (.all true)
  | .linear => do
    if !((shift.zip dx).all fun p => decide (|p.1| < 2 * p.2)) then throw .valueError
    let g ← f.ensureTransformState spl (.all false)
    let g ← lin g shift
    g.ensureTransformState spl (.all true)
  | .fourier => do
    if !((shift.zip dx).all fun p => decide (|p.1| < 2 * p.2)) then throw .valueError
    let g ← f.ensureTransformState spl (.all true)
    let tao ← addOrigins (shift.zipIdx.map fun (p : ℝ × ℕ) => ((p.2 : ℤ), p.1)) g.tao
    return { g with tao := tao }

/-- One of the two terms of the cross product, `i` is 1 or 2. A missing field leads to an `AttributeError`, because
exceptions have no attribute `message`. `helper.py:842-928`. -/
def kspaceTerm (spl : Splines ℝ) (lin : Field ℝ ℂ → List ℝ → Res (Field ℝ ℂ)) (interp : Interpolation)
    (omega : List ℝ → Option ℝ) (fields : List (String × Field ℝ ℂ)) (electric : Bool) (pol : ℕ)
    (data : List (ℝ × ℝ)) (dx : List ℝ) (result : Field ℝ ℂ) (i : ℕ) : Res (Field ℝ ℂ) := do
  let meshI := (pol + 3 - i) % 3
  if meshI < result.axes.length then
    match (fieldKey (!electric) ((pol + i) % 3)).bind fun key => fields.lookup key with
    | none => throw .attributeError
    | some f => do
      let g ← f.aligned spl lin interp result.shape data dx
      return { result with
        matrix := ⟨result.shape, fun idx =>
          let k := meshAt result.axes idx
          result.matrix.at' idx +
            ((-1) ^ (i - 1) * prefactor electric omega k * k.getD meshI 0 : ℝ) * g.matrix.at' idx⟩ }
  else return result

/-- `kspace(component, fields, None, interpolation, omega_func)`. The second part of the result is the dictionary of the
caller afterwards: if the field of the component is in the frequency domain already, `ensure_frequency_domain` returns the
object itself and its `matrix` is replaced. (The keyword argument `extent` is not modelled.) `helper.py:740-930`. -/
def kspace (spl : Splines ℝ) (lin : Field ℝ ℂ → List ℝ → Res (Field ℝ ℂ)) (component : String)
    (fields : List (String × Field ℝ ℂ)) (interp : Interpolation) (omega : List ℝ → Option ℝ) :
    Res (Field ℝ ℂ × List (String × Field ℝ ℂ)) := do
  let (polfield, pol) ← parseComponent component
  let electric := decide (polfield = 'E')
  if ¬ (polfield = 'E' ∨ polfield = 'B') then throw .valueError
  match fieldKey electric pol with
  | none => throw .valueError
  | some key =>
    match fields.lookup key with
    | none => throw .valueError
    | some main => do
      let l ← toTransform main.ats ((StateRequest.all true).items main.dims.toNat)
      let result ← main.ensureTransformState spl (.all true)
      let grids ← result.conjugateGrids
      let data ← grids.mapM gridData
      let dx ← grids.mapM gridStep
      let r1 ← kspaceTerm spl lin interp omega fields electric pol data dx result 1
      let r2 ← kspaceTerm spl lin interp omega fields electric pol data dx r1 2
      return (r2, if l = [] then fields.map fun p => if p.1 = key then (p.1, r2) else p else fields)

/-! ### Propagation -/

/-- The arguments of `_kspace_propagate_generator`. -/
structure PropagateArgs where
  dt : ℝ
  movingWindowVect : Option (List ℝ) := none
  moveWindow : Option Bool := none
  removeAntipropagating : Option Bool := none
  yieldZerothStep : Bool := false

/-- `npl.norm`. -/
def norm2 (v : List ℝ) : ℝ := Real.sqrt (square v)

/-- `exp_iwt`. `helper.py:1017-1031`. -/
def expIwt (axes : List (Axis ℝ)) (dt : ℝ) (idx : List ℕ) : ℂ :=
  Complex.exp (-Complex.I * (lightSpeed * Real.sqrt (square (meshAt axes idx)) : ℝ) * dt)

/-- `replace_data` with an array of the same shape. `datahandling.py:1057-1060`. -/
def Field.withData (f : Field ℝ ℂ) (m : List ℕ → ℂ) : Field ℝ ℂ := { f with matrix := ⟨f.shape, m⟩ }

/-- The state of the generator after the preparations: the field in the frequency domain, and whether the window is moved
along which direction, and whether the results are transformed back. -/
structure Propagation where
  kspace : Field ℝ ℂ
  doFft : Bool
  window : Option (List ℝ)

/-- The part before the first `yield` and the loop. A direction with norm 0 is divided by 0: `nan` in all components, which is
not modelled (`undefinedBehaviour`). `helper.py:1006-1077`. -/
def prepare (spl : Splines ℝ) (f : Field ℝ ℂ) (a : PropagateArgs) : Res Propagation := do
  let state ← match ← collectiveState f.ats f.rangeDims with
    | some b => (pure b : Res Bool)
    | none => throw .valueError
  let k ← if state then pure f else f.fft spl none "spatial" false
  let vect ← match a.movingWindowVect with
    | none => (pure none : Res (Option (List ℝ)))
    | some v => do
      if (v.length : ℤ) ≠ k.dims then throw .valueError
      if norm2 v = 0 then throw .undefinedBehaviour
      pure (some (v.map (· / norm2 v)))
  let remove := a.removeAntipropagating.getD vect.isSome
  let move := a.moveWindow.getD vect.isSome
  let k ← if remove then
      match vect with
      | none => (throw .valueError : Res (Field ℝ ℂ))
      | some v => pure (k.withData fun idx =>
          if ((v.zip (meshAt k.axes idx)).map fun p => p.1 * p.2).sum < 0 then 0 else k.matrix.at' idx)
    else pure k
  return ⟨k, !state, if move then some (vect.getD []) else none⟩

/-- One run of the loop. `helper.py:1079-1088`. -/
def propagateStep (dt : ℝ) (p : Propagation) : Res Propagation := do
  let k := p.kspace.withData fun idx => p.kspace.matrix.at' idx * expIwt p.kspace.axes dt idx
  match p.window with
  | none => return { p with kspace := k }
  | some v => do
    let tao ← addOrigins (v.zipIdx.map fun (q : ℝ × ℕ) => ((q.2 : ℤ), lightSpeed * dt * q.1)) k.tao
    return { p with kspace := { k with tao := tao } }

/-- What the generator yields. -/
def Propagation.output (spl : Splines ℝ) (p : Propagation) : Res (Field ℝ ℂ) :=
  if p.doFft then p.kspace.fft spl none "spatial" false else .ok p.kspace

/-- The first `n` results of the loop. -/
def propagateLoop (spl : Splines ℝ) (dt : ℝ) : ℕ → Propagation → Res (List (Field ℝ ℂ))
  | 0, _ => .ok []
  | n + 1, p => do
    let p ← propagateStep dt p
    let f ← p.output spl
    let l ← propagateLoop spl dt n p
    return f :: l

/-- `move_window` needs a direction; checked after the zeroth step. `helper.py:1075-1077`. -/
def checkWindow (a : PropagateArgs) : Res Unit :=
  if a.moveWindow = some true ∧ a.movingWindowVect.isNone then .error .valueError else .ok ()

/-- The first `n` results of the generator. `helper.py:1069-1093`. -/
def propagate (spl : Splines ℝ) (f : Field ℝ ℂ) (n : ℕ) (a : PropagateArgs) : Res (List (Field ℝ ℂ)) :=
  match n with
  | 0 => .ok []
  | n + 1 => do
    let p ← prepare spl f a
    if a.yieldZerothStep then
      let z ← p.output spl
      if n = 0 then return [z]
      checkWindow a
      let l ← propagateLoop spl a.dt n p
      return z :: l
    else
      checkWindow a
      propagateLoop spl a.dt (n + 1) p

end

end Postpic.Fields
