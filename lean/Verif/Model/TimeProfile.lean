import Verif.Model.Kspace

/-!
# Model of the time profile of a propagating field in a plane

`time_profile_at_plane` with `algorithm="iterative"`: `postpic/helper.py:1113-1204`.
-/

set_option autoImplicit false

namespace Postpic.Fields

open Postpic Postpic.Axes

noncomputable section

/-- `_apply_linear_phase(dx, phi0)`. `datahandling.py:2127-2146`. -/
def Field.applyLinearPhase (f : Field ℝ ℂ) (dx : List (ℕ × ℝ)) (phi0 : ℝ) : Res (Field ℝ ℂ) := do
  match ← collectiveState f.ats (dx.map fun p => (p.1 : ℤ)) with
  | none => throw .valueError
  | some state => return f.withData fun idx => f.matrix.at' idx * linearPhase state f.axes dx phi0 idx

/-- The keyword arguments: position of the plane, direction, time of the input, and of those which are handed on to
`kspace_propagate` the only one which is not overwritten. -/
structure ProfileArgs where
  value : Option ℝ := none
  dir : ℝ := 1
  tInput : ℝ := 0
  removeAntipropagating : Option Bool := none

/-- `initial_dt` from the points `grid` of the axis in the spatial domain and their distance. `helper.py:1159-1174`. -/
def initialTime (a : ProfileArgs) (grid : List ℝ) (spacing : ℝ) : Res ℝ :=
  match a.value with
  | none => .ok 0
  | some v => do
    let r ← if 0 < a.dir then (do let g ← pyGet grid (-1); pure (g + spacing) : Res ℝ) else pyGet grid 0
    return a.dir * (v - r) / lightSpeed

/-- The arguments of both calls of `kspace_propagate`. `helper.py:1151-1158, 1183-1186`. -/
def profileArgs (a : ProfileArgs) (dims axis : ℕ) (dt : ℝ) (move zeroth : Bool) : PropagateArgs :=
  { dt := dt, movingWindowVect := some ((List.replicate dims 0).set axis a.dir), moveWindow := some move,
    removeAntipropagating := a.removeAntipropagating, yieldZerothStep := zeroth }

/-- The new matrix: the sums over the axis after each step, one after the other along the axis. `helper.py:1189-1199`. -/
def profileMatrix (shape : List ℕ) (axis N : ℕ) (gen : List (Field ℝ ℂ)) : Arr ℂ :=
  ⟨shape, fun idx => match gen[idx.getD axis 0]? with
    | none => 0
    | some g => ∑ m ∈ Finset.range N, g.matrix.at' (idx.set axis m)⟩

/-- The part after the transforms, for the field `kspace` in the frequency domain and the axis `cax` of the field in the spatial
domain. With one point along the axis `kspace_propagate` does not return a generator; this is not modelled
(`undefinedBehaviour`). `helper.py:1141-1208`. -/
def profileK (spl : Splines ℝ) (kspace : Field ℝ ℂ) (cax : Axis ℝ) (axis : ℕ) (a : ProfileArgs) : Res (Field ℝ ℂ) := do
  let dr ← cax.spacing
  let dt := dr / lightSpeed
  let kax ← pyGet kspace.axes axis
  let dV ← kax.spacing
  let N ← pyGet kspace.shape axis
  let fftnorm := Real.sqrt (dV * N / (2 * Real.pi / dV)) / Real.sqrt N
  let dims := kspace.dims.toNat
  let kspace ← kspace.binaryNumber (· * ·) (fftnorm : ℂ)
  let initialDt ← initialTime a cax.grid dr
  let l ← propagate spl kspace 1 (profileArgs a dims axis initialDt true false)
  let kspace ← pyGet l 0
  let kax ← pyGet kspace.axes axis
  let inputOrigin ← pyGet kax.grid 0
  let outGrid ← kspace.conjugateGrid axis
  let outputOrigin ← pyGet outGrid 0
  let kspace ← kspace.applyLinearPhase [(axis, outputOrigin)] (-(inputOrigin * outputOrigin))
  if cax.len = 1 then throw .undefinedBehaviour
  let gen ← propagate spl kspace cax.len (profileArgs a dims axis dt false true)
  let t0 := a.tInput + initialDt
  let tax ← mkAxis spl { name := "t", unit := "s", grid := some (linspace t0 (t0 + ((N : ℝ) - 1) * dt) N) }
  checkAxisObj kspace.shape axis tax
  return { kspace with
    matrix := profileMatrix kspace.shape axis N gen
    axes := kspace.axes.set axis tax
    ats := kspace.ats.set axis (some false)
    tao := kspace.tao.set axis none }

/-- `_time_profile_at_plane_iterative(f, axis, ...)`; `axis` is the number of the axis (`axesidentify`). A transform of no axes at
all, which is asked for with a one-dimensional field in the spatial domain, is not modelled (`undefinedBehaviour`).
`helper.py:1113-1208`. -/
def timeProfileIterative (spl : Splines ℝ) (f : Field ℝ ℂ) (axis : ℕ) (a : ProfileArgs) : Res (Field ℝ ℂ) := do
  let state ← match ← collectiveState f.ats f.rangeDims with
    | some b => (pure b : Res Bool)
    | none => throw .valueError
  let g ← f.fft spl none "spatial" false
  let kspace := if state then f else g
  let complexField := if state then g else f
  if kspace.dims ≤ axis then throw .valueError
  let cax ← pyGet complexField.axes axis
  let r ← profileK spl kspace cax axis a
  if state then return r
  let others := (List.range kspace.dims.toNat).filter (· ≠ axis)
  if others = [] then throw .undefinedBehaviour
  r.fft spl (some (others.map Int.ofNat)) "spatial" false

end

end Postpic.Fields
