import Verif.Model.EpochLike
import Verif.Spec.Kspace

/-!
# Specification: fields which are averaged over half steps of time
-/

set_option autoImplicit false

namespace Postpic.Spec

open Postpic Postpic.Axes Postpic.Fields

noncomputable section

/-- A wave `A exp(-iωt)` at the time `t`. -/
def waveAt (A : ℂ) (w t : ℝ) : ℂ := A * Complex.exp (-(Complex.I * (w * t : ℝ)))

/-- The mean of the wave half a step before and half a step after the time 0: this is what a simulation writes for the field which
it knows at the half steps only. -/
def halfStepMean (dt w : ℝ) (A : ℂ) : ℂ := (waveAt A w (-(dt / 2)) + waveAt A w (dt / 2)) / 2

/-- The factor by which the amplitude of a wave with the frequency `w` is changed by the mean: `|cos(ω dt/2)|`. -/
def meanFactor (dt w : ℝ) : ℝ := |Real.cos (w * dt / 2)|

/-- What divides an amplitude of the electric (`electric = true`) or magnetic field if `averaged` is the letter of the field which is
known at the half steps only. -/
def correction (averaged : String) (electric : Bool) (dt w : ℝ) : ℝ :=
  if (if electric then "E" else "B") = averaged then meanFactor dt w else 1

/-- What the simulation writes for an amplitude `A` of the electric or magnetic field of a wave. -/
def dumped (averaged : String) (electric : Bool) (dt w : ℝ) (A : ℂ) : ℂ :=
  if (if electric then "E" else "B") = averaged then halfStepMean dt w A else A

/-- The frequency of a wave in vacuum. -/
def vacuumFrequency (k : Fin 3 → ℝ) : ℝ := lightSpeed * Real.sqrt (k 0 ^ 2 + k 1 ^ 2 + k 2 ^ 2)

end

end Postpic.Spec
