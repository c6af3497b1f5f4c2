import Verif.Model.TimeProfile
import Verif.Spec.Kspace

/-!
# Specification: measuring a propagating field in a plane
-/

set_option autoImplicit false

namespace Postpic.Spec

open Postpic Postpic.Axes Postpic.Fields

noncomputable section

/-- The plane if nothing is said: one cell after the last of the `n` points `x0, x0 + h, ...` for propagation in the positive
direction, the first point for the negative direction. -/
def defaultPlane (a : ProfileArgs) (x0 h : ℝ) (n : ℕ) : ℝ := if 0 < a.dir then x0 + n * h else x0

/-- The plane which is asked for. -/
def measuringPlane (a : ProfileArgs) (x0 h : ℝ) (n : ℕ) : ℝ := a.value.getD (defaultPlane a x0 h n)

/-- How long after the time of the input the measurement starts: what is at the default plane needs this time to the plane which is
asked for. -/
def profileStart (a : ProfileArgs) (x0 h : ℝ) (n : ℕ) : ℝ :=
  a.dir * (measuringPlane a x0 h n - defaultPlane a x0 h n) / lightSpeed

/-- A wave with the component `k` of the wave vector perpendicular to the plane runs against the direction and is removed, unless
this is not wanted. -/
def Against (a : ProfileArgs) (k : ℝ) : Prop := a.removeAntipropagating ≠ some false ∧ a.dir * k < 0

open Classical in
/-- The amplitudes of the waves in the field `K` at a time which is later by `t`, without those which are removed. -/
def amplitudeAt (a : ProfileArgs) (K : Field ℝ ℂ) (d : Fin 3) (t : ℝ) (idx : List ℕ) : ℂ :=
  if Against a (waveVector K idx d) then 0 else K.matrix.at' idx * vacuumPhase (waveVector K idx) t

/-- The sum of the waves with the amplitudes `g` at the position `X` along the dimension `d`: the inverse Fourier transform along
this dimension, evaluated at one position. The `n` points of the grid of `K` along `d` have the distance `dk`. -/
def valueInPlane (K : Field ℝ ℂ) (d : Fin 3) (dk : ℝ) (n : ℕ) (g : List ℕ → ℂ) (X : ℝ) (idx : List ℕ) : ℂ :=
  (dk / Real.sqrt (2 * Real.pi) : ℝ) * ∑ m ∈ Finset.range n,
    g (idx.set d m) * Complex.exp (Complex.I * (((gridAlong K d).getD m 0 * X : ℝ) : ℂ))

end

end Postpic.Spec
