import Mathlib.Data.Complex.Basic
import Verif.Model.Kspace
import Verif.Spec.Autoreduce

/-!
# Specification: propagation in steps on growing grids
-/

set_option autoImplicit false

namespace Postpic.Spec

open Postpic Postpic.Fields

noncomputable section

/-- The array `big` contains `small` from the position `off` on, and is 0 elsewhere. -/
structure Embedded (small big : Arr ℂ) (off : List ℕ) : Prop where
  offsets : off.length = small.shape.length
  dims : big.shape.length = small.shape.length
  room : ∀ d o n N : ℕ, off[d]? = some o → small.shape[d]? = some n → big.shape[d]? = some N → o + n ≤ N
  inside : ∀ j, InBounds small.shape j → big.at' (List.zipWith (· + ·) off j) = small.at' j
  outside : ∀ idx, InBounds big.shape idx →
    (∃ d i o n : ℕ, idx[d]? = some i ∧ off[d]? = some o ∧ small.shape[d]? = some n ∧ (i < o ∨ o + n ≤ i)) → big.at' idx = 0

/-- The mean of the lengths of the dimensions other than `d`, for a grid with `shape` cells of the sizes `h`. -/
def meanWidth (shape : List ℕ) (h : ℕ → ℝ) (d : ℕ) : ℝ :=
  (((List.range shape.length).filter (· ≠ d)).map fun e => shape.getD e 0 * h e).sum / (shape.length - 1 : ℕ)

/-- The numbers of cells, if the cells are joined in pairs, pairs of pairs and so on until no dimension has more than 4000. -/
def coarseShape (shape : List ℕ) : List ℕ := shape.map fun n => n / 2 ^ halvings 4000 n

/-- The sizes of the joined cells. -/
def coarseSize (shape : List ℕ) (h : ℕ → ℝ) (d : ℕ) : ℝ := 2 ^ halvings 4000 (shape.getD d 0) * h d

/-- The middle of the first of the joined cells. -/
def coarseFirst (shape : List ℕ) (x0 h : ℕ → ℝ) (d : ℕ) : ℝ := x0 d - h d / 2 + coarseSize shape h d / 2

/-- The times of the results. -/
def timesOf {α : Type} (l : List (Res (ℝ × α))) : List ℝ := l.filterMap fun r => (r.toOption).map (·.1)

/-- The results end with an exception. -/
def Raises {α : Type} (l : List (Res α)) : Prop := ∃ e, l.getLast? = some (.error e)

end

end Postpic.Spec
