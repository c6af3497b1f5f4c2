import Verif.Model.Constants

/-!
# Critical density
-/

set_option autoImplicit false

namespace Postpic.Spec

open Postpic.Constants

/-- The square of the plasma frequency for a density `n` of electrons. -/
noncomputable def plasmaFrequencySq (n : ℝ) : ℝ := n * qe ^ 2 / (epsilon0 * me)

/-- The angular frequency of light with this wavelength in vacuum. -/
noncomputable def lightFrequency (lam : ℝ) : ℝ := 2 * Real.pi * c / lam

/-- The value `x` agrees with the recommended value `v` (CODATA 2018) to one part in a million. -/
def Agrees (x v : ℝ) : Prop := |x - v| ≤ v / 10 ^ 6

end Postpic.Spec
