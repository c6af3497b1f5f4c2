import Verif.Spec.Fft

/-!
# Specification: superpositions of plane waves
-/

set_option autoImplicit false

namespace Postpic.Spec

open Postpic Postpic.Axes Postpic.Fields

noncomputable section

/-- The superposition of the waves with the wave numbers `κ d` along the dimensions `d` of the list, at the position `x`: the index of the
amplitude `A` along these dimensions is the number of the wave. -/
def wavesAt (κ : ℕ → List ℝ) (x : ℕ → ℝ) : List ℕ → (List ℕ → ℂ) → List ℕ → ℂ
  | [], A, idx => A idx
  | d :: L, A, idx => ∑ m ∈ Finset.range (κ d).length,
      Complex.exp (Complex.I * ((κ d).getD m 0 : ℝ) * (x d : ℝ)) * wavesAt κ x L A (idx.set d m)

/-- The wave numbers which a grid of `n` cells of the size `h` resolves: multiples of `2π/(n h)`, as many as grid points and as small as
possible, unless the first one is given. -/
def waveNumbers (first : Option ℝ) (n : ℕ) (h : ℝ) : List ℝ :=
  (List.range n).map fun (j : ℕ) => first.getD (-(n / 2 : ℕ) * (2 * Real.pi / (n * h))) + j * (2 * Real.pi / (n * h))

/-- The wave numbers along the dimension `d` of a field with cells of the size `h d`. A field which was transformed before remembers the first
one. -/
def resolved {V : Type} (f : Field ℝ V) (h : ℕ → ℝ) (d : ℕ) : List ℝ := waveNumbers (f.tao.getD d none) (f.shape.getD d 0) (h d)

/-- The coordinate along the dimension `d` of the grid point with this index. -/
def coordAt (axes : List (Axis ℝ)) (idx : List ℕ) (d : ℕ) : ℝ := (((axes[d]?).map (·.grid)).getD []).getD (idx.getD d 0) 0

/-- A real field `r` continues the real field `f`, known at the points of a grid with `D` dimensions and cells of the size `h`: if the field
is given by any superposition of waves which the grid resolves, then the values of `r` are those of its real part at the points of `r`. -/
def ContinuesWaves (D : ℕ) (h : ℕ → ℝ) (f r : Field ℝ ℝ) : Prop :=
  ∀ A, (∀ idx, InBounds f.shape idx → (f.matrix.at' idx : ℂ) =
      wavesAt (resolved f h) (coordAt f.axes idx) (List.range D) A idx) →
    ∀ idx, InBounds f.shape idx → r.matrix.at' idx =
      (wavesAt (resolved f h) (coordAt r.axes idx) (List.range D) A idx).re

/-- The field is a superposition of waves which its grid resolves. -/
def IsWaves (D : ℕ) (h : ℕ → ℝ) (f : Field ℝ ℝ) : Prop :=
  ∃ A, ∀ idx, InBounds f.shape idx → (f.matrix.at' idx : ℂ) =
      wavesAt (resolved f h) (coordAt f.axes idx) (List.range D) A idx

end

end Postpic.Spec
