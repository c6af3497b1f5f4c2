import Verif.Model.EpochLike

/-!
# Model of the reconstruction of the k-space in a part of the grid

The keyword argument `extent` of `kspace` and `kspace_epoch_like`.
-/

set_option autoImplicit false

namespace Postpic.Fields

open Postpic Postpic.Axes

/-- `np.reshape(extent, (n, 2))`. -/
def pairsOf {α : Type} : List α → List (α × α)
  | a :: b :: l => (a, b) :: pairsOf l
  | _ => []

/-- `field._extent_to_slices(extent)`. `datahandling.py:2301-2306`. -/
def Field.extentToSlices {K V : Type} [_root_.Field K] [LinearOrder K] (f : Field K V) (ext : List K) : Res (List Slice) :=
  if f.dims * 2 ≠ ext.length then .error .typeError
  else (f.axes.zip (pairsOf ext)).mapM fun p => p.1.extentToSlice (some p.2.1) (some p.2.2)

noncomputable section

/-- `_kspace_helper_cutfields(component, fields, extent)`. `helper.py:596-598`. -/
def cutFields (spl : Splines ℝ) (component : String) (fields : List (String × Field ℝ ℂ)) (ext : List ℝ) :
    Res (List (String × Field ℝ ℂ)) :=
  match fields.lookup component with
  | none => .error .keyError
  | some main => do
    let sl ← main.extentToSlices ext
    fields.mapM fun q => do
      let g ← q.2.getitem spl (sl.map Key.slice)
      return (q.1, g)

/-- All fields are transformed to the spatial domain and cut. `helper.py:706-708`, `helper.py:785-788`. -/
def applyExtent (spl : Splines ℝ) (component : String) (fields : List (String × Field ℝ ℂ)) (ext : List ℝ) :
    Res (List (String × Field ℝ ℂ)) := do
  let spatial ← fields.mapM fun q => do
    let g ← q.2.ensureTransformState spl (.all false)
    return (q.1, g)
  cutFields spl component spatial ext

/-- `kspace(component, fields, extent, interpolation, omega_func)`: with an extent a new dictionary with copies is used, the
fields of the caller stay. `helper.py:740-930`. -/
def kspaceIn (spl : Splines ℝ) (lin : Field ℝ ℂ → List ℝ → Res (Field ℝ ℂ)) (component : String)
    (fields : List (String × Field ℝ ℂ)) (extent : Option (List ℝ)) (interp : Interpolation) (omega : List ℝ → Option ℝ) :
    Res (Field ℝ ℂ × List (String × Field ℝ ℂ)) :=
  match extent with
  | none => kspace spl lin component fields interp omega
  | some ext =>
    if component = "" then .error .indexError
    else do
      let cut ← applyExtent spl component fields ext
      let (r, _) ← kspace spl lin component cut interp omega
      return (r, fields)

/-- `kspace_epoch_like(component, fields, dt, extent, omega_func, align_to)`. `helper.py:682-737`. -/
def kspaceEpochLikeIn (spl : Splines ℝ) (lin : Field ℝ ℂ → List ℝ → Res (Field ℝ ℂ)) (component : String)
    (fields : List (String × Field ℝ ℂ)) (dt : ℝ) (extent : Option (List ℝ)) (omega : List ℝ → Option ℝ) (alignTo : String) :
    Res (Field ℝ ℂ × List (String × Field ℝ ℂ)) :=
  match extent with
  | none => kspaceEpochLike spl lin component fields dt omega alignTo
  | some ext => do
    let _ ← parseComponent component
    if (fields.lookup component).isNone then throw .valueError
    let cut ← applyExtent spl component fields ext
    let (r, _) ← kspaceEpochLike spl lin component cut dt omega alignTo
    return (r, fields)

end

end Postpic.Fields
