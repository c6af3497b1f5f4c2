import Mathlib.Analysis.SpecialFunctions.Sqrt
import Mathlib.Analysis.SpecialFunctions.Complex.Circle
import Verif.Model.Kspace

/-!
# Specification: waves in vacuum which pass a plane
-/

set_option autoImplicit false

namespace Postpic.Spec

open Postpic.Fields

noncomputable section

/-- The frequency of the wave with the component `kl` along an axis and the other components `perp`. -/
def frequencyAlong (perp : List ℝ) (kl : ℝ) : ℝ := lightSpeed * Real.sqrt (kl ^ 2 + (perp.map (· ^ 2)).sum)

/-- A point at `x` at the time `t0` which moves with the speed of light along (`dir > 0`) or against the axis is at `value` at this
time. -/
def passes (dir t0 x value : ℝ) : ℝ := t0 + (if 0 < dir then value - x else x - value) / lightSpeed

/-- The amplitude per frequency of a wave with the amplitude `a` per wave number: `D` is the derivative of the frequency, and the
phase is that at the plane. -/
def AmplitudePerFrequency (perp : List ℝ) (kl value : ℝ) (a b : ℂ) : Prop :=
  ∃ D : ℝ, HasDerivAt (frequencyAlong perp) D kl ∧ D ≠ 0 ∧
    b = a * Complex.exp (Complex.I * (kl * value : ℝ)) / (|D| : ℝ)

end

end Postpic.Spec
