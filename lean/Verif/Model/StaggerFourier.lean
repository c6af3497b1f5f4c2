import Verif.Model.Fft
import Verif.Model.FieldProps
import Verif.Model.Stagger

/-!
# Fields on staggered grids, moved with the fourier method

The default method of `helper.unstagger_fields`.
-/

set_option autoImplicit false

namespace Postpic.Fields

open Postpic Postpic.Axes

noncomputable section

/-- A real field as a complex one: numpy converts the data when it transforms them. -/
def Field.toComplex (f : Field ℝ ℝ) : Field ℝ ℂ := ⟨f.name, f.unit, Arr.each Complex.ofReal f.matrix, f.axes, f.ats, f.tao⟩

/-- `field.shift_grid_by(dx, 'fourier').real`, as in the loop of `unstagger_fields` for real fields. `helper.py:589-591`,
`datahandling.py:2184-2207`. -/
def byFourierReal (spl : Splines ℝ) (f : Field ℝ ℝ) (dx : List ℝ) : Res (Field ℝ ℝ) := do
  let nf ← f.toComplex.shiftGridBy spl (enumerate dx)
  nf.real

/-- `field.shift_grid_by(dx, 'fourier')`, as in the loop of `unstagger_fields` for complex fields. `helper.py:589`,
`datahandling.py:2184-2207`. -/
def byFourier (spl : Splines ℝ) (f : Field ℝ ℂ) (dx : List ℝ) : Res (Field ℝ ℂ) := f.shiftGridBy spl (enumerate dx)

end

end Postpic.Fields
