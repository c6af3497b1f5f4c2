import Mathlib.Algebra.BigOperators.Group.Finset.Basic
import Verif.Model.Histogramdd
import Verif.Spec.Kernel

/-!
# Specification: the distribution function of a list of particles
-/

set_option autoImplicit false

namespace Postpic.Spec

open Postpic.Histogram (Shape BinsArg End)

variable {K : Type} [Field K] [LinearOrder K]

/-- One dimension of a histogram: the range, the number of bins, and the coordinate of each particle
along this dimension. -/
structure Dim (K : Type) where
  range : K × K
  bins : ℕ
  coords : List K

/-- The size of a bin. -/
def Dim.cell (d : Dim K) : K := (d.range.2 - d.range.1) / d.bins

/-- The position of particle number `p` in units of bins. -/
def Dim.scaledPos (d : Dim K) (p : ℕ) : K := scaled d.range d.bins (d.coords.getD p 0)

/-- The fraction of particle number `p` which belongs to the cell `idx`: the product of the
assignment functions along all dimensions. -/
def fraction (s : Shape) : List (Dim K) → List ℕ → ℕ → K
  | d :: ds, i :: idx, p => W s ((i : K) + 1 / 2 - d.scaledPos p) * fraction s ds idx p
  | _, _, _ => 1

/-- The distribution function: weight per volume in the cell `idx`. -/
def density (s : Shape) (ds : List (Dim K)) (w : List K) (idx : List ℕ) : K :=
  (∑ p ∈ Finset.range w.length, w.getD p 0 * fraction s ds idx p) / (ds.map Dim.cell).prod

/-- A usable dimension for `N` particles: the range is not degenerate, there are bins, all
particles lie within the range or clearly outside. -/
structure Dim.Ok (spacing : K → K) (s : Shape) (N : ℕ) (d : Dim K) : Prop where
  range : Proper spacing d.range
  pos : 0 < d.bins
  bound : d.bins < 2 ^ 31
  len : d.coords.length = N
  clear : ∀ x ∈ d.coords, Clear s d.bins (scaled d.range d.bins x)

/-- The shapes of all particles lie within the range. -/
def Dim.AllInside (s : Shape) (d : Dim K) : Prop :=
  ∀ x ∈ d.coords, Inside s d.bins (scaled d.range d.bins x)

/-- The range meant by an argument, for these coordinates: a missing end is the smallest or the
largest coordinate. -/
def ArgMeans (arg : Option (End K × End K)) (d : Dim K) : Prop :=
  let a := arg.bind (·.1)
  let b := arg.bind (·.2)
  (∀ x, a = some x → d.range.1 = x) ∧
  (a = none → d.range.1 ∈ d.coords ∧ ∀ y ∈ d.coords, d.range.1 ≤ y) ∧
  (∀ x, b = some x → d.range.2 = x) ∧
  (b = none → d.range.2 ∈ d.coords ∧ ∀ y ∈ d.coords, y ≤ d.range.2)

/-- The numbers of bins meant by an argument: one number for all dimensions, a list, or the
defaults. -/
def BinsMean (ns : List ℕ) : BinsArg → Prop
  | .int n => ∀ m ∈ ns, m = n
  | .many l => l = ns
  | .none => (ns.length = 1 ∧ ns = [800]) ∨ (ns.length = 2 ∧ ns = [500, 500]) ∨
      (ns.length = 3 ∧ ns = [200, 200, 200])

end Postpic.Spec
