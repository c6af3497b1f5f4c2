import Verif.Model.TimeProfile

/-!
# Model of the time profile with the Fourier algorithm

The formulas of `time_profile_at_plane` with `algorithm="fourier"` and the choice of the algorithm,
`postpic/helper.py:1216-1378`. The interpolation of the field in the frequency domain between the grid points
(`map_coordinates`) is not part of this model.
-/

set_option autoImplicit false

namespace Postpic.Fields

open Postpic Postpic.Axes

noncomputable section

/-- The coordinate along the axis from the frequency and the other components of the wave vector. Without other components
the expression `(w/c)**2 - ()` is evaluated. `helper.py:1247-1264`. -/
def profileLong (dir w : ℝ) (perp : List ℝ) : Res ℝ :=
  if perp = [] then .error .typeError
  else
    let inner := (w / lightSpeed) ^ 2 - (perp.map (· ^ 2)).sum
    .ok (if 0 < inner then (if 0 < dir then Real.sqrt inner else -Real.sqrt inner) else 0)

/-- The value of the expression at the wave vector with the component `kl` along the axis and the other components `perp`, where the
field has the value `a`. A division by 0 does not give a number: `none`. `helper.py:1274-1293`. -/
def profileAmplitude (dir value kl : ℝ) (perp : List ℝ) (a : ℂ) : Option ℂ :=
  if (if 0 < dir then kl < 0 else 0 < kl) ∨ (kl = 0 ∧ ∀ q ∈ perp, q = 0) then some 0
  else if kl = 0 then none
  else some (a * Complex.exp (Complex.I * value * kl) / kl * Real.sqrt (kl ^ 2 + (perp.map (· ^ 2)).sum))

/-- The position of the plane, for a field with the extent `lo`, `hi` along the axis. `helper.py:1269-1272`. -/
def profilePlane (value : Option ℝ) (lo hi : ℝ) : ℝ := value.getD (0.5 * (hi + lo))

/-- `transformed_axes_origins[axis]`: where the axis of the time begins. `helper.py:1309-1310`. -/
def profileStart (tInput hi value : ℝ) : ℝ := tInput - (hi - value) / lightSpeed

/-- The factor for the time of the input. `helper.py:1295-1302`. -/
def profileTime (tInput w : ℝ) (a : ℂ) : ℂ := if w < 0 then 0 else a * Complex.exp (Complex.I * tInput * w)

/-- `time_profile_at_plane`: `extra` are the additional keyword arguments; the second part of the result says whether there is
a warning. `helper.py:1321-1378`. -/
def timeProfileAtPlane {α β : Type} (fourier : Res α) (iterative : List β → Res α) (algorithm : String) (extra : List β) :
    Res α × Bool :=
  if algorithm = "fourier" then (fourier, decide (0 < extra.length))
  else if algorithm = "iterative" then (iterative extra, false)
  else (.error .runtimeError, false)

end

end Postpic.Fields
