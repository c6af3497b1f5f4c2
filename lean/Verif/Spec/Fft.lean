import Mathlib.Analysis.SpecialFunctions.Trigonometric.Basic
import Verif.Model.Field
import Verif.Spec.FieldResolution

/-!
# Specification: sums approximating the Fourier integral
-/

set_option autoImplicit false

namespace Postpic.Spec

noncomputable section

/-- `c ∑ g(x) exp(s i k x)` over the points `x` along the dimension `d`; the value at position `m`
along `d` belongs to the `m`-th of the points `ks`. -/
def fourierAlong (c s : ℝ) (xs ks : List ℝ) (d : ℕ) (g : List ℕ → ℂ) : List ℕ → ℂ := fun idx =>
  c * ∑ n ∈ Finset.range xs.length,
    g (idx.set d n) * Complex.exp (s * Complex.I * (ks.getD (idx.getD d 0) 0 : ℝ) * (xs.getD n 0 : ℝ))

open Postpic Postpic.Axes Postpic.Fields

/-- The dimensions `L` of a field are among the first three, all in the frequency domain
(`state = true`) or all not (`state = false`), and have evenly spaced increasing axes: the first cell
of dimension `d` starts at `e0 d`, all cells have the size `h d`. -/
structure EvenDims (f : Field ℝ ℂ) (L : List ℕ) (state : Bool) (e0 h : ℕ → ℝ) : Prop where
  some_dim : L ≠ []
  number : ∀ d ∈ L, d ≤ 2
  state : ∀ d ∈ L, f.ats[d]? = some (some state)
  pos : ∀ d ∈ L, 0 < h d
  axis : ∀ d ∈ L, ∃ ax, f.axes[d]? = some ax ∧ EvenAxis ax (e0 d) (h d)

/-- In addition there are at least two points along each of these dimensions. -/
structure Transformable (f : Field ℝ ℂ) (L : List ℕ) (state : Bool) (e0 h : ℕ → ℝ) : Prop
    extends EvenDims f L state e0 h where
  two : ∀ d ∈ L, ∀ n, f.shape[d]? = some n → 2 ≤ n

/-- The grid points along the dimension `d`. -/
def gridAlong (f : Field ℝ ℂ) (d : ℕ) : List ℝ := ((f.axes[d]?).map (·.grid)).getD []

/-- The sign in the exponential: `exp(-ikx)` towards the frequency domain and `exp(ikx)` back, the
opposite for `temporal`. -/
def exponentSign (state : Bool) (signs : String) : ℝ :=
  if state then (if signs = "temporal" then -1 else 1) else (if signs = "temporal" then 1 else -1)

/-- Names which are found again after transforming twice: not starting with `k` outside the frequency
domain; `w` or `k` followed by such a name (but not `t`) in the frequency domain. -/
def ConjugableName : Bool → String → Prop
  | false, name => name.toList.head? ≠ some 'k'
  | true, name => name = "w" ∨ ∃ s : String, s.toList.head? ≠ some 'k' ∧ s ≠ "t" ∧ name = "k" ++ s

/-- Units which are found again after transforming twice. -/
def ConjugableUnit : Bool → String → Prop
  | false, unit => unit.toList.head? ≠ some '1' ∧ unit.toList.head? ≠ some '/'
  | true, unit => ∃ u : String, u.toList.head? ≠ some '1' ∧ u.toList.head? ≠ some '/' ∧ unit = "1/" ++ u

/-- The index with the positions along the dimensions `L` moved by `q` cells, cyclically. -/
def rolled (shape : List ℕ) (L : List ℕ) (q : ℕ → ℤ) (idx : List ℕ) : List ℕ :=
  idx.zipIdx.map fun p =>
    if p.2 ∈ L then (((p.1 : ℤ) + q p.2) % (shape.getD p.2 1 : ℕ)).toNat else p.1

end

end Postpic.Spec
