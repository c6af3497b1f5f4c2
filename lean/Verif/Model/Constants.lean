import Mathlib.Analysis.Real.Pi.Bounds

/-!
# Physical constants
-/

set_option autoImplicit false

namespace Postpic.Constants

noncomputable section

/-- Speed of light. `helper.py:159`. -/
def c : ℝ := 299792458

/-- Mass of the electron. `helper.py:160`. -/
def me : ℝ := 9.109383e-31

/-- `mass_u`. `helper.py:161`. -/
def massU : ℝ := me * 1836.2

/-- Elementary charge. `helper.py:162`. -/
def qe : ℝ := 1.602176565e-19

/-- `mu0`. `helper.py:163`. -/
def mu0 : ℝ := Real.pi * 4e-7

/-- `epsilon0`. `helper.py:164`. -/
def epsilon0 : ℝ := 1 / (mu0 * c ^ 2)

/-- `ncrit_um(lambda_um)`. `helper.py:166-172`. -/
def ncritUm (lambdaUm : ℝ) : ℝ := 1.11e27 * 1 / lambdaUm ^ 2

/-- `ncrit(laslambda)`. `helper.py:174-180`. -/
def ncrit (laslambda : ℝ) : ℝ := ncritUm (laslambda * 1e6)

end

end Postpic.Constants
