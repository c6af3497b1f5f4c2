import Verif.Model.Kspace

/-!
# Model of the reconstruction of the k-space from dumps of EPOCH

`kspace_epoch_like` of `postpic/helper.py:642-737`, without the keyword argument `extent`.
-/

set_option autoImplicit false

namespace Postpic.Fields

open Postpic Postpic.Axes

noncomputable section

/-- `_linear_interpolation_frequency_response(dt, a)` as a function of `omega`. `helper.py:642-656`. -/
def linResponse (dt a w : ℝ) : ℂ := (1 - a : ℝ) + (a : ℝ) * Complex.exp (Complex.I * (dt * w : ℝ))

/-- `abs(lin_response_omega(omega_func(kmesh)))` at a position. Where `omega` is `nan` so is the response; there is no `nan` in
the complex numbers, 0 is used instead, and the theorems leave out this case. `helper.py:675`. -/
def responseAt (dt : ℝ) (omega : List ℝ → Option ℝ) (k : List ℝ) : ℂ :=
  match omega k with
  | none => 0
  | some w => (‖linResponse dt (1 / 2) w‖ : ℝ)

/-- `_linear_interpolation_frequency_response_on_k(_linear_interpolation_frequency_response(dt), k_axes, omega_func)`.
The constructor squeezes the array, so this is for axes with at least two points only. `helper.py:659-679`. -/
def responseOnK (dt : ℝ) (axes : List (Axis ℝ)) (omega : List ℝ → Option ℝ) : Res (Field ℝ ℂ) :=
  mkField ⟨axes.map Axis.len, fun idx => responseAt dt omega (meshAt axes idx)⟩ "f" "" axes
    (axes.map fun _ => some false) (axes.map fun _ => none)

/-- The field `f` with the key `key` after the correction: with another letter than `align_to` all fields except the one of the
component are divided, otherwise the one of the component. A division by 0 gives `inf` or `nan` in numpy and 0 here; the
theorems leave out this case. `helper.py:722-732`. -/
def correctOne (component : String) (divideOthers : Bool) (resp : Field ℝ ℂ) (q : String × Field ℝ ℂ) :
    Res (String × Field ℝ ℂ) :=
  if decide (q.1 = component) = divideOthers then .ok q
  else do
    let g ← q.2.binary (· / ·) resp
    return (q.1, g)

/-- `kspace_epoch_like(component, fields, dt, None, omega_func, align_to)`. The last call does not hand `omega_func` on, so
that it uses `omega_free`. The second part of the result is the dictionary of the caller afterwards: the field of the component
is overwritten as in `kspace` if it is in the frequency domain and not divided. `helper.py:682-737`. -/
def kspaceEpochLike (spl : Splines ℝ) (lin : Field ℝ ℂ → List ℝ → Res (Field ℝ ℂ)) (component : String)
    (fields : List (String × Field ℝ ℂ)) (dt : ℝ) (omega : List ℝ → Option ℝ) (alignTo : String) :
    Res (Field ℝ ℂ × List (String × Field ℝ ℂ)) := do
  let (polfield, _) ← parseComponent component
  match fields.lookup component with
  | none => throw .valueError
  | some old => do
    let transformed ← fields.mapM fun q => do
      let F ← q.2.ensureTransformState spl (.all true)
      return (q.1, F)
    match transformed.lookup component with
    | none => throw .keyError
    | some main => do
      let resp ← responseOnK dt main.axes omega
      let divideOthers := decide (polfield.toString ≠ alignTo)
      let corrected ← transformed.mapM (correctOne component divideOthers resp)
      let (r, _) ← kspace spl lin component corrected .fourier omegaFree
      let l ← toTransform old.ats ((StateRequest.all true).items old.dims.toNat)
      return (r, if l = [] ∧ divideOthers then fields.map fun q => if q.1 = component then (q.1, r) else q else fields)

end

end Postpic.Fields
