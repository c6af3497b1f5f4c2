import Verif.Model.KspaceExtent

/-!
# Model of the old reconstruction of the k-space from dumps of EPOCH

`kspace_epoch_like_old` of `postpic/helper.py:601-639`.
-/

set_option autoImplicit false

namespace Postpic.Fields

open Postpic Postpic.Axes

noncomputable section

/-- `dx`: half of a cell, but 0 along the axis of the component, negative for a component of `B`. An assignment outside of the array
raises an `IndexError`, which is ignored. `helper.py:626-633`. -/
def halfCells (f : Field ℝ ℂ) (polaxis : ℕ) (magnetic : Bool) : Res (List ℝ) := do
  let dx ← f.axes.mapM fun ax => do
    let s ← gridStep ax.grid
    return s / 2
  let dx := dx.set polaxis 0
  return if magnetic then dx.map fun v => v * (-1) else dx

/-- The part after the extent is applied; the second part of the result is the dictionary afterwards. `helper.py:623-639`. -/
def epochOldHere (spl : Splines ℝ) (lin : Field ℝ ℂ → List ℝ → Res (Field ℝ ℂ)) (component : String)
    (fields : List (String × Field ℝ ℂ)) (omega : List ℝ → Option ℝ) (alignTo : String) (polfield : Char) (polaxis : ℕ) :
    Res (Field ℝ ℂ × List (String × Field ℝ ℂ)) :=
  if polfield.toString = alignTo then kspace spl lin component fields .linear omega
  else
    match fields.lookup component with
    | none => .error .keyError
    | some f => do
      let dx ← halfCells f polaxis (polfield = 'B')
      let moved ← lin f dx
      kspace spl lin component (fields.map fun q => if q.1 = component then (q.1, moved) else q) .fourier omega

/-- `kspace_epoch_like_old(component, fields, extent, omega_func, align_to)`; the second part of the result is the dictionary of the
caller afterwards. `lin` stands for `shift_grid_by` with linear interpolation. `helper.py:603-639`. -/
def kspaceEpochOld (spl : Splines ℝ) (lin : Field ℝ ℂ → List ℝ → Res (Field ℝ ℂ)) (component : String)
    (fields : List (String × Field ℝ ℂ)) (extent : Option (List ℝ)) (omega : List ℝ → Option ℝ) (alignTo : String) :
    Res (Field ℝ ℂ × List (String × Field ℝ ℂ)) := do
  let (polfield, polaxis) ← parseComponent component
  match extent with
  | none => epochOldHere spl lin component fields omega alignTo polfield polaxis
  | some ext => do
    let cut ← applyExtent spl component fields ext
    let (r, _) ← epochOldHere spl lin component cut omega alignTo polfield polaxis
    return (r, fields)

end

end Postpic.Fields
