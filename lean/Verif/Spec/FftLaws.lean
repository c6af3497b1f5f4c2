import Verif.Spec.Fft
import Verif.Spec.FieldNatural

/-!
# Specification: relations between Fourier transforms
-/

set_option autoImplicit false

namespace Postpic.Spec

open Postpic Postpic.Axes Postpic.Fields

noncomputable section

/-- `idx'` is the place of the negative frequencies: along the dimensions `L` the coordinates of `F` are the negative ones, all other positions
are the same. -/
structure Opposite (F : Fields.Field ℝ ℂ) (L : List ℕ) (idx idx' : List ℕ) : Prop where
  first : InBounds F.shape idx
  second : InBounds F.shape idx'
  coordinate : ∀ d ∈ L, (gridAlong F d).getD (idx'.getD d 0) 0 = -(gridAlong F d).getD (idx.getD d 0) 0
  other : ∀ d, d ∉ L → idx'[d]? = idx[d]?

/-- The sum along the dimension `d`, times `c`. -/
def sumAlong (c : ℝ) (n d : ℕ) (g : List ℕ → ℂ) : List ℕ → ℂ := fun idx => c * ∑ m ∈ Finset.range n, g (idx.set d m)

end

end Postpic.Spec
